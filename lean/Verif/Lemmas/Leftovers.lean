import Verif.Lemmas.TwoSurveys
import Verif.Props.SurveyState

/-! What a survey leaves behind in samplers and selectors. -/

set_option autoImplicit false
set_option linter.unusedSectionVars false

namespace Popsynth
open Spec
variable {F G : Type}

/-- Effect of a part of a survey on the values that samplers in `S` pass to selectors;
samplers in `L` may be given luminosities. -/
structure DFrame (S L : Nat → Prop) (h t : Heap F G) : Prop where
  ident : ∀ j, (t.samplers j).ident = (h.samplers j).ident
  lum : ∀ j, ¬ L j → (t.samplers j).luminosity = (h.samplers j).luminosity
  flux : ∀ q, (t.selectors q).data.flux = (h.selectors q).data.flux
  spat : ∀ q, (t.selectors q).data.spatial = (h.selectors q).data.spatial
  dist : ∀ q, (∀ j, S j → (h.samplers j).selector = q → (h.samplers j).usesDistance = false) →
    (t.selectors q).data.distance = (h.selectors q).data.distance
  slum : ∀ q, (∀ j, S j → (h.samplers j).selector = q → ¬ L j ∧ (h.samplers j).luminosity = none) →
    (t.selectors q).data.luminosity = (h.selectors q).data.luminosity

theorem DFrame.refl (S L : Nat → Prop) (h : Heap F G) : DFrame S L h h :=
  ⟨fun _ => rfl, fun _ _ => rfl, fun _ => rfl, fun _ => rfl, fun _ _ => rfl, fun _ _ => rfl⟩

theorem DFrame.trans {S L : Nat → Prop} {a b c : Heap F G} (p : DFrame S L a b) (q : DFrame S L b c) :
    DFrame S L a c where
  ident j := (q.ident j).trans (p.ident j)
  lum j hj := (q.lum j hj).trans (p.lum j hj)
  flux x := (q.flux x).trans (p.flux x)
  spat x := (q.spat x).trans (p.spat x)
  dist x hx := by
    refine (q.dist x fun j hj hs => ?_).trans (p.dist x hx)
    rw [ident_usesDistance (p.ident j)]
    exact hx j hj (by rw [← ident_selector (p.ident j)]; exact hs)
  slum x hx := by
    refine (q.slum x fun j hj hs => ?_).trans (p.slum x hx)
    have := hx j hj (by rw [← ident_selector (p.ident j)]; exact hs)
    exact ⟨this.1, by rw [p.lum j this.1]; exact this.2⟩

theorem DFrame.children {S L : Nat → Prop} {h t : Heap F G} (p : DFrame S L h t) : t.children = h.children := by
  funext j; simp only [Heap.children, ident_secondaries (p.ident j)]

/-- Nothing but the random state and the trace changes. -/
theorem DFrame.of_eq {S L : Nat → Prop} {h t : Heap F G} (e1 : t.samplers = h.samplers)
    (e2 : t.selectors = h.selectors) : DFrame S L h t :=
  ⟨fun _ => by rw [e1], fun _ _ => by rw [e1], fun _ => by rw [e2], fun _ => by rw [e2],
    fun _ _ => by rw [e2], fun _ _ => by rw [e2]⟩

/-- Only samplers change, keeping their fixed parts. -/
theorem DFrame.of_samplers {S L : Nat → Prop} {h t : Heap F G}
    (e1 : ∀ j, (t.samplers j).ident = (h.samplers j).ident)
    (e3 : ∀ j, ¬ L j → (t.samplers j).luminosity = (h.samplers j).luminosity)
    (e2 : t.selectors = h.selectors) : DFrame S L h t :=
  ⟨e1, e3, fun _ => by rw [e2], fun _ => by rw [e2], fun _ _ => by rw [e2], fun _ _ => by rw [e2]⟩

section
variable [LE F] [DecidableLE F] [OfNat F 0] [OfNat F 1]

theorem giveSelector_frame {S L : Nat → Prop} {i : Nat} (hi : S i) {h t : Heap F G}
    (hk : giveSelector i h = .ok () t) : DFrame S L h t ∧ t.samplers = h.samplers := by
  unfold giveSelector at hk
  rw [bind_ok_iff] at hk
  obtain ⟨_, h1, k1, k2⟩ := hk
  have f1 : DFrame S L h h1 ∧ h1.samplers = h.samplers := by
    unfold giveDistance at k1
    split at k1
    · rename_i hu
      split at k1
      · cases k1
      · cases k1
        refine ⟨⟨fun _ => rfl, fun _ _ => rfl, fun q => ?_, fun q => ?_, fun q hq => ?_, fun q hq => ?_⟩, rfl⟩
        · by_cases hx : q = (h.samplers i).selector <;> simp [Heap.modSelector, hx]
        · by_cases hx : q = (h.samplers i).selector <;> simp [Heap.modSelector, hx]
        · by_cases hx : q = (h.samplers i).selector
          · rw [hq i hi hx.symm] at hu; cases hu
          · simp [Heap.modSelector, hx]
        · by_cases hx : q = (h.samplers i).selector <;> simp [Heap.modSelector, hx]
    · cases k1; exact ⟨DFrame.refl S L _, rfl⟩
  have f2 : DFrame S L h1 t ∧ t.samplers = h1.samplers := by
    unfold giveLuminosity at k2
    split at k2
    · cases k2; exact ⟨DFrame.refl S L _, rfl⟩
    · rename_i l hl
      cases k2
      refine ⟨⟨fun _ => rfl, fun _ _ => rfl, fun q => ?_, fun q => ?_, fun q hq => ?_, fun q hq => ?_⟩, rfl⟩
      · by_cases hx : q = (h1.samplers i).selector <;> simp [Heap.modSelector, hx]
      · by_cases hx : q = (h1.samplers i).selector <;> simp [Heap.modSelector, hx]
      · by_cases hx : q = (h1.samplers i).selector <;> simp [Heap.modSelector, hx]
      · by_cases hx : q = (h1.samplers i).selector
        · rw [(hq i hi hx.symm).2] at hl; cases hl
        · simp [Heap.modSelector, hx]
  exact ⟨f1.1.trans f2.1, f2.2.trans f1.2⟩

theorem finishDraw_frame {S L : Nat → Prop} {w : World F G} {i n : Nat} {h t : Heap F G}
    (hk : finishDraw w i n h = .ok () t) : DFrame S L h t := by
  obtain ⟨a1, -, a3, tv, ov, p, pr, -, -, -, a7, g, g', a8⟩ := finishDraw_ok hk
  have hkeep := selDraw_keeps w.sel w.half w.ninety w.showProgress n
    { sel := { h.selectors (h.samplers i).selector with
        data := { (h.selectors (h.samplers i).selector).data with obsValue := some ov } }, rng := g }
  rw [a8] at hkeep
  have hdata := hkeep.2.2.2.1
  simp only [endState] at hdata
  have hid : ∀ j, (t.samplers j).ident = (h.samplers j).ident := by
    intro j
    by_cases hj : j = i
    · subst hj; rw [a7]; rfl
    · rw [a1 j hj]
  have key : ∀ q, (t.selectors q).data.flux = (h.selectors q).data.flux ∧
      (t.selectors q).data.spatial = (h.selectors q).data.spatial ∧
      (t.selectors q).data.distance = (h.selectors q).data.distance ∧
      (t.selectors q).data.luminosity = (h.selectors q).data.luminosity := by
    intro q
    by_cases hq : q = (h.samplers i).selector
    · subst hq; rw [hdata]; exact ⟨rfl, rfl, rfl, rfl⟩
    · rw [a3 q hq]; exact ⟨rfl, rfl, rfl, rfl⟩
  refine ⟨hid, ?_, fun q => (key q).1, fun q => (key q).2.1, fun q _ => (key q).2.2.1, fun q _ => (key q).2.2.2⟩
  intro j _
  by_cases hj : j = i
  · subst hj; rw [a7]
  · rw [a1 j hj]

theorem samplerDraw_frame {S L : Nat → Prop} (w : World F G) (n : Nat) :
    ∀ (k i : Nat) (h t : Heap F G), S i → (∀ j, S j → ∀ c ∈ h.children j, S c) →
      samplerDraw w k i n h = .ok () t → DFrame S L h t
  | 0, _, _, _, _, _, hk => by cases hk
  | k + 1, i, h, t, hi, hc, hk => by
    rw [samplerDraw, bind_apply, get_apply] at hk
    simp only at hk
    cases hs : (h.samplers i).isSampled with
    | true => simp only [hs, if_true, pure_apply] at hk; cases hk; exact DFrame.refl S L _
    | false =>
      simp only [hs, Bool.false_eq_true, if_false] at hk
      rw [bind_ok_iff] at hk
      obtain ⟨_, h1, k1, hk⟩ := hk
      rw [bind_ok_iff] at hk
      obtain ⟨_, h2, k2, k3⟩ := hk
      have f1 := (giveSelector_frame (L := L) hi k1).1
      have loop : ∀ (todo : Dict Nat) (ha hb : Heap F G), (∀ p ∈ todo, p.2 ∈ h.children i) →
          DFrame S L h ha → forEach todo (fun p => do
            prepSecondary i p.2
            samplerDraw w k p.2 n) ha = .ok () hb → DFrame S L h hb := by
        intro todo
        induction todo with
        | nil => intro ha hb _ fa e; cases e; exact fa
        | cons p todo ih =>
          intro ha hb hsub fa e
          rw [forEach_cons, bind_ok_iff] at e
          obtain ⟨_, hd, ec, hrest⟩ := e
          rw [bind_ok_iff] at ec
          obtain ⟨_, hm, em, ed⟩ := ec
          have fm : DFrame S L ha hm := by
            unfold prepSecondary at em
            split at em
            · split at em
              · cases em
              · simp only [setSpatialValues, modify_apply] at em
                cases em
                refine DFrame.of_samplers ?_ ?_ rfl
                · intro j; by_cases hj : j = p.2
                  · subst hj; simp; rfl
                  · simp [Heap.modSampler, hj]
                · intro j _; by_cases hj : j = p.2 <;> simp [Heap.modSampler, hj]
            · cases em
          have fam := fa.trans fm
          refine ih hd hb (fun q hq => hsub q (by simp [hq])) ?_ hrest
          refine fam.trans (samplerDraw_frame w n k p.2 hm hd (hc i hi _ (hsub p (by simp))) ?_ ed)
          rw [fam.children]; exact hc
      have f2 : DFrame S L h h2 := loop _ h1 h2 (fun p hp => List.mem_map_of_mem hp) f1 k2
      exact f2.trans (finishDraw_frame k3)

theorem prepareAux_frame {S L : Nat → Prop} {lums : List F} {v : Spatial F} {i : Nat} {h t : Heap F G}
    (hk : prepareAux lums v i h = .ok () t) (hi : L i)
    (hc : ∀ c ∈ h.children i, (h.samplers c).usesLuminosity = true → L c) : DFrame S L h t := by
  unfold prepareAux at hk
  simp only [setLuminosity, setSpatialValues, bind_apply, modify_apply, get_apply] at hk
  set h1 : Heap F G := (h.modSampler i fun s => { s with luminosity := some lums }).modSampler i
    fun s => { s with spatial := some v } with hh1
  have f1 : DFrame S L h h1 := by
    refine DFrame.of_samplers ?_ ?_ rfl
    · intro j; by_cases hj : j = i
      · subst hj; simp [h1]; rfl
      · simp [h1, Heap.modSampler, hj]
    · intro j hjl
      have hj : j ≠ i := by rintro rfl; exact hjl hi
      simp [h1, Heap.modSampler, hj]
  have loop : ∀ (todo : Dict Nat) (ha hb : Heap F G), (∀ p ∈ todo, p.2 ∈ h.children i) →
      DFrame S L h ha → forEach todo (prepareSec lums v) ha = .ok () hb → DFrame S L h hb := by
    intro todo
    induction todo with
    | nil => intro ha hb _ fa e; cases e; exact fa
    | cons p todo ih =>
      intro ha hb hsub fa e
      rw [forEach_cons, bind_ok_iff] at e
      obtain ⟨_, hd, ec, hrest⟩ := e
      refine ih hd hb (fun q hq => hsub q (by simp [hq])) (fa.trans ?_) hrest
      have hul : (ha.samplers p.2).usesLuminosity = true → L p.2 := fun hu =>
        hc p.2 (hsub p (by simp)) (by rw [← ident_usesLuminosity (fa.ident p.2)]; exact hu)
      unfold prepareSec at ec
      rw [bind_apply, get_apply] at ec
      simp only at ec
      cases hu : (ha.samplers p.2).usesLuminosity <;> cases hu2 : (ha.samplers p.2).usesDistance <;>
        simp only [hu, hu2, if_true, if_false, Bool.false_eq_true, setLuminosity, setSpatialValues, bind_apply,
          modify_apply, pure_apply] at ec <;> cases ec
      · exact DFrame.refl S L _
      · refine DFrame.of_samplers ?_ ?_ rfl
        · intro j; by_cases hj : j = p.2
          · subst hj; simp; rfl
          · simp [Heap.modSampler, hj]
        · intro j _; by_cases hj : j = p.2 <;> simp [Heap.modSampler, hj]
      · refine DFrame.of_samplers ?_ ?_ rfl
        · intro j; by_cases hj : j = p.2
          · subst hj; simp; rfl
          · simp [Heap.modSampler, hj]
        · intro j hl
          have hj : j ≠ p.2 := by rintro rfl; exact hl (hul hu)
          simp [Heap.modSampler, hj]
      · refine DFrame.of_samplers ?_ ?_ rfl
        · intro j; by_cases hj : j = p.2
          · subst hj; simp; rfl
          · simp [Heap.modSampler, hj]
        · intro j hl
          have hj : j ≠ p.2 := by rintro rfl; exact hl (hul hu)
          simp [Heap.modSampler, hj]
  refine loop _ _ _ ?_ f1 hk
  intro p hp
  rw [ident_secondaries (f1.ident i)] at hp
  exact List.mem_map_of_mem hp

/-! ### Whole surveys -/

/-- Secondaries that use luminosities belong to attached samplers only. -/
def Spec.LumAttachedOnly (y : Synth F) (h : Heap F G) : Prop :=
  ∀ i ∈ y.aux.map Prod.snd, ∀ c ∈ h.children i, (h.samplers c).usesLuminosity = true →
    y.derived ≠ some c ∧ ∀ k, ReachFrom h y.roots k → c ∈ h.children k → k ∈ y.aux.map Prod.snd

/-- The draws of a survey. -/
theorem AllRun.dframe {e : SurveyEnv F G} {y : Synth F} {a : SurveyArgs F} {s : SurvSt F G}
    {d : Drawn F G} {s7 : SurvSt F G} (r : AllRun e y a s d s7) (hr : Rooted y s.heap)
    (hl : LumAttachedOnly y s.heap) :
    DFrame (ReachFrom s.heap y.roots) (GetsLuminosity y s.heap) s.heap r.s6.heap := by
  have same : ∀ h t : Heap F G, SameHeap h t →
      DFrame (ReachFrom s.heap y.roots) (GetsLuminosity y s.heap) h t := fun h t k => by
    rw [k]; exact DFrame.of_eq rfl rfl
  have closed : ∀ t : Heap F G, t.children = s.heap.children → ∀ j, ReachFrom s.heap y.roots j →
      ∀ c ∈ t.children j, ReachFrom s.heap y.roots c := by
    rintro t ht j ⟨i, hi, hj⟩ c hc
    rw [ht] at hc
    exact ⟨i, hi, reach_trans_child hj hc⟩
  have f3 := same _ _ r.heap3
  have f4 : DFrame (ReachFrom s.heap y.roots) (GetsLuminosity y s.heap) s.heap r.s4.heap := by
    refine f3.trans ?_
    rcases drawLuminosities_ok r.lumd with ⟨i, hi, ⟨q⟩⟩ | ⟨nm, -, -, ⟨q⟩⟩
    · have f : DFrame (ReachFrom s.heap y.roots) (GetsLuminosity y s.heap) r.s3.heap q.h1 := by
        have k := q.set
        simp only [setSpatialValues, modify_apply, EStateM.Result.ok.injEq, true_and] at k
        rw [← k]
        refine DFrame.of_samplers ?_ ?_ rfl
        · intro j; by_cases hj : j = i
          · subst hj; simp; rfl
          · simp [Heap.modSampler, hj]
        · intro j _; by_cases hj : j = i <;> simp [Heap.modSampler, hj]
      refine f.trans (samplerDraw_frame e.world d.n e.frames i _ _ ?_ ?_ q.drawn)
      · exact ⟨i, by simp [Synth.roots, hi], .here _⟩
      · exact closed _ (f3.trans f).children
    · exact (same _ _ (onLum_heap q.drawn)).trans (same _ _ (onLum_heap q.probd))
  have loop : ∀ (todo : Dict Nat) (l l' : Loc F) (t t' : SurvSt F G), (∀ kv ∈ todo, kv ∈ y.aux) →
      DFrame (ReachFrom s.heap y.roots) (GetsLuminosity y s.heap) s.heap t.heap →
      foldPy todo l (auxStep e d.n d.lums d.pos) t = .ok l' t' →
      DFrame (ReachFrom s.heap y.roots) (GetsLuminosity y s.heap) s.heap t'.heap := by
    intro todo
    induction todo with
    | nil => intro l l' t t' _ f hk; cases hk; exact f
    | cons kv todo ih =>
      intro l l' t t' hsub f hk
      rw [foldPy_cons, bind_ok_iff] at hk
      obtain ⟨l1, t1, k1, k2⟩ := hk
      refine ih l1 l' t1 t' (fun x hx => hsub x (by simp [hx])) (f.trans ?_) k2
      obtain ⟨q⟩ := auxStep_ok k1
      have hm : kv.2 ∈ y.aux.map Prod.snd := List.mem_map_of_mem (hsub kv (by simp))
      have hroot : kv.2 ∈ y.roots := by simp only [Synth.roots, List.mem_append]; exact .inr hm
      have f1 : DFrame (ReachFrom s.heap y.roots) (GetsLuminosity y s.heap) t.heap q.h1 := by
        refine prepareAux_frame q.set ⟨fun hd => hr.separate _ hd hm, .inl hm⟩ ?_
        intro c hc hu
        rw [f.children] at hc
        rw [ident_usesLuminosity (f.ident c)] at hu
        obtain ⟨h1, h2⟩ := hl kv.2 hm c hc hu
        exact ⟨h1, .inr ⟨hu, h2⟩⟩
      refine f1.trans (samplerDraw_frame e.world d.n e.frames kv.2 _ _ ⟨kv.2, hroot, .here _⟩ ?_ q.drawn)
      exact closed _ (f.trans f1).children
  exact (loop _ _ _ _ _ (fun _ h => h) f4 r.auxd).trans (same _ _ r.heap6)

/-- `select` changes the mask, the mark and possibly the parameters of its selector. -/
theorem selectOn_data {e : SurveyEnv F G} {q n : Nat} {s s' : SurvSt F G}
    (h : selectOn e q n s = .ok () s') (x : Nat) :
    (s'.heap.selectors x).data = (s.heap.selectors x).data ∧
    (s'.heap.selectors x).kind = (s.heap.selectors x).kind ∧
    (s'.heap.selectors x).cls = (s.heap.selectors x).cls ∧
    (s'.heap.selectors x).name = (s.heap.selectors x).name ∧
    (x ≠ q → (s'.heap.selectors x).isSampled = (s.heap.selectors x).isSampled) := by
  have f := selectOn_ok h
  by_cases hx : x = q
  · subst hx
    cases hs : (s.heap.selectors x).isSampled with
    | true => rw [f.kept hs]; exact ⟨rfl, rfl, rfl, rfl, fun _ => hs⟩
    | false =>
      obtain ⟨t, k1, k2⟩ := f.drawn hs
      have k := selDraw_keeps e.world.sel e.world.half e.world.ninety e.world.showProgress n
        { sel := s.heap.selectors x, rng := s.heap.rng }
      rw [k1] at k
      rw [k2]
      exact ⟨k.2.2.2.1, k.1, k.2.1, k.2.2.1, fun h => (h rfl).elim⟩
  · rw [f.others x hx]; exact ⟨rfl, rfl, rfl, rfl, fun _ => rfl⟩

/-- From the end of the draws to the end of the survey. -/
theorem SurveyRun.selData {e : SurveyEnv F G} {y : Synth F} {a : SurveyArgs F} {s : SurvSt F G}
    {P : Population F} {s' : SurvSt F G} (r : SurveyRun e y a s P s') (x : Nat) :
    ((s'.heap.selectors x).data = { (r.all.s6.heap.selectors x).data with
        flux := (s'.heap.selectors x).data.flux, spatial := (s'.heap.selectors x).data.spatial }) ∧
    (x ≠ y.fluxSel → (s'.heap.selectors x).data.flux = (r.all.s6.heap.selectors x).data.flux) ∧
    (some x ≠ y.spatSel → (s'.heap.selectors x).data.spatial = (r.all.s6.heap.selectors x).data.spatial) ∧
    (s'.heap.selectors x).kind = (r.all.s6.heap.selectors x).kind ∧
    (s'.heap.selectors x).cls = (r.all.s6.heap.selectors x).cls ∧
    (s'.heap.selectors x).name = (r.all.s6.heap.selectors x).name ∧
    (x ≠ y.fluxSel → x ≠ y.distSel → some x ≠ y.spatSel →
      (s'.heap.selectors x).isSampled = (r.all.s6.heap.selectors x).isSampled) := by
  obtain ⟨q⟩ := applySelections_ok r.all.selected
  have d1 := selectOn_data q.fluxd x
  have d2 := selectOn_data r.build.distd x
  rw [← r.build.frame.2.2.2.1] at d2
  have d0 : ∀ (h : Heap F G) v, ((h.modSelector y.fluxSel fun c =>
      { c with data := { c.data with flux := v } }).selectors x) =
      { h.selectors x with data := { (h.selectors x).data with
        flux := if x = y.fluxSel then v else (h.selectors x).data.flux } } := by
    intro h v
    by_cases hx : x = y.fluxSel <;> simp [Heap.modSelector, hx]
  simp only [d0] at d1
  have d3 : ((r.s7.heap.selectors x).data = { (q.s2.heap.selectors x).data with
        spatial := (r.s7.heap.selectors x).data.spatial }) ∧
      (some x ≠ y.spatSel → (r.s7.heap.selectors x).data.spatial = (q.s2.heap.selectors x).data.spatial) ∧
      (r.s7.heap.selectors x).kind = (q.s2.heap.selectors x).kind ∧
      (r.s7.heap.selectors x).cls = (q.s2.heap.selectors x).cls ∧
      (r.s7.heap.selectors x).name = (q.s2.heap.selectors x).name ∧
      (some x ≠ y.spatSel → (r.s7.heap.selectors x).isSampled = (q.s2.heap.selectors x).isSampled) := by
    rcases applySpatial_ok q.spat with ⟨-, -, he⟩ | ⟨p, hp, -, hsel, -⟩
    · have : r.s7.heap.selectors = q.s2.heap.selectors := congrArg (·.heap.selectors) he
      rw [this]; exact ⟨rfl, fun _ => rfl, rfl, rfl, rfl, fun _ => rfl⟩
    · have k := selectOn_data hsel x
      by_cases hx : x = p
      · subst hx
        simp only [Heap.modSelector, if_true] at k
        exact ⟨by rw [k.1], fun h => (h hp.symm).elim, k.2.1, k.2.2.1, k.2.2.2.1, fun h => (h hp.symm).elim⟩
      · simp only [Heap.modSelector, if_neg hx] at k
        exact ⟨by rw [k.1], fun _ => by rw [k.1], k.2.1, k.2.2.1, k.2.2.2.1, fun _ => k.2.2.2.2 hx⟩
  obtain ⟨a1, a2, a3, a4, a5⟩ := d1
  obtain ⟨b1, b2, b3, b4, b5⟩ := d2
  obtain ⟨c1, c2, c3, c4, c5, c6⟩ := d3
  refine ⟨?_, fun hx => ?_, fun hx => ?_, b2.trans (c3.trans a2), b3.trans (c4.trans a3), b4.trans (c5.trans a4),
    fun h1 h2 h3 => (b5 h2).trans ((c6 h3).trans (a5 h1))⟩
  · rw [b1, c1, a1]
  · rw [b1, c1, a1]; simp [hx]
  · rw [b1, c2 hx, a1]

/-- The selectors of the survey are not sampled after a reset. -/
theorem resetAll_selectors {frames : Nat} {y : Synth F} {h h' : Heap F G}
    (hk : resetAll frames y h = .ok () h') (q : Nat)
    (hq : q = y.fluxSel ∨ q = y.distSel ∨ some q = y.spatSel) : (h'.selectors q).isSampled = false := by
  have rs : ∀ c : Selector F G, c.reset.isSampled = false := by
    intro c; unfold Selector.reset; split <;> simp_all
  unfold resetAll at hk
  simp only [bind_ok_iff, modify_apply, EStateM.Result.ok.injEq] at hk
  obtain ⟨_, t1, -, _, t2, -, _, t3, ⟨-, rfl⟩, k⟩ := hk
  have two : ∀ x, x = y.fluxSel ∨ x = y.distSel →
      (((t2.modSelector y.fluxSel Selector.reset).modSelector y.distSel Selector.reset).selectors x).isSampled
        = false := by
    intro x hx
    by_cases h2 : x = y.distSel
    · simp [Heap.modSelector, h2, rs]
    · have h1 : x = y.fluxSel := hx.resolve_right h2
      simp only [Heap.modSelector, h1, if_true]
      split <;> exact rs _
  cases hs : y.spatSel with
  | none =>
    rw [hs] at k
    cases k
    exact two q (by simpa [hs] using hq)
  | some p =>
    rw [hs] at k
    simp only [resetSpatSel, modify_apply] at k
    cases k
    by_cases hqp : q = p
    · subst hqp; simp [Heap.modSelector, rs]
    · have : q = y.fluxSel ∨ q = y.distSel := by
        rcases hq with h | h | h
        · exact .inl h
        · exact .inr h
        · rw [hs] at h; cases h; exact (hqp rfl).elim
      have := two q this
      simp only [Heap.modSelector, if_neg hqp] at this ⊢
      exact this

end
end Popsynth
