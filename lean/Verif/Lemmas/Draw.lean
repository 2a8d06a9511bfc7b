import Verif.Lemmas.Sampler

/-!
The effect of a successful `draw` on the sampler heap, as a composable
relation, and its proof by induction on the recursion depth.
-/

set_option linter.unusedSectionVars false

namespace Popsynth
open Spec
variable {F G : Type}

/-- The part of a sampler that drawing never changes. -/
def Sampler.static (s : Sampler F) : Sampler F :=
  { s with isSampled := false, params := {}, spatial := none,
           trueVals := none, obsVals := none, prob := none }

/-- The part of a selector that drawing never changes. -/
def Selector.flags (c : Selector F G) :
    SelKind F G × String × String × Bool × Bool × Bool × Bool × Bool :=
  (c.kind, c.cls, c.name, c.isSampled, c.data.useObs, c.data.useDistance, c.data.useLuminosity,
    c.data.useFlux)

section fields
variable {s s' : Sampler F}
theorem static_secondaries (h : s'.static = s.static) : s'.secondaries = s.secondaries :=
  by
  have := congrArg (Sampler.secondaries (F := F)) h
  exact this
theorem static_selector (h : s'.static = s.static) : s'.selector = s.selector :=
  by
  have := congrArg (Sampler.selector (F := F)) h
  exact this
theorem static_luminosity (h : s'.static = s.static) : s'.luminosity = s.luminosity :=
  by
  have := congrArg (Sampler.luminosity (F := F)) h
  exact this
theorem static_isObserved (h : s'.static = s.static) : s'.isObserved = s.isObserved :=
  by
  have := congrArg (Sampler.isObserved (F := F)) h
  exact this
theorem static_isSecondary (h : s'.static = s.static) : s'.isSecondary = s.isSecondary :=
  by
  have := congrArg (Sampler.isSecondary (F := F)) h
  exact this
theorem static_usesDistance (h : s'.static = s.static) : s'.usesDistance = s.usesDistance :=
  by
  have := congrArg (Sampler.usesDistance (F := F)) h
  exact this
theorem static_usesLuminosity (h : s'.static = s.static) : s'.usesLuminosity = s.usesLuminosity :=
  by
  have := congrArg (Sampler.usesLuminosity (F := F)) h
  exact this
theorem static_name (h : s'.static = s.static) : s'.name = s.name :=
  by
  have := congrArg (Sampler.name (F := F)) h
  exact this
theorem static_hasSecondary (h : s'.static = s.static) : s'.hasSecondary = s.hasSecondary :=
  by
  have := congrArg (Sampler.hasSecondary (F := F)) h
  exact this
end fields

variable [LE F] [DecidableLE F] [OfNat F 0] [OfNat F 1]

/-- The selector of sampler `e` holds the mask drawn for the sampler's observed
values; if it was not used before (`first`), with the parameters it had. -/
def DrawnFor (w : World F G) (n : Nat) (h0 h' : Heap F G) (e q : Nat) (first : Prop) : Prop :=
  ∃ st g', selDraw w.sel w.half w.ninety w.showProgress n st =
      .ok () { sel := h'.selectors q, rng := g' } ∧
    st.sel.data.obsValue = (h'.samplers e).obsVals ∧ st.sel.flags = (h0.selectors q).flags ∧
    (first → st.sel.params = (h0.selectors q).params)

/-- Effect of a (partial) draw: samplers in `T` were drawn, in this order. `Q` are
selectors whose data were changed without a draw. -/
structure Eff (w : World F G) (n : Nat) (sp : Option (Spatial F)) (Q : List Nat)
    (h h' : Heap F G) (T : List (Nat × SView F)) : Prop where
  static : ∀ j, (h'.samplers j).static = (h.samplers j).static
  trace : h'.trace = h.trace ++ T
  nodup : (T.map Prod.fst).Nodup
  fresh : ∀ e ∈ T, (h.samplers e.1).isSampled = false
  marks : ∀ j, (h'.samplers j).isSampled = true ↔
    (h.samplers j).isSampled = true ∨ j ∈ T.map Prod.fst
  keep : ∀ j, j ∉ T.map Prod.fst →
    (h'.samplers j).trueVals = (h.samplers j).trueVals ∧
    (h'.samplers j).obsVals = (h.samplers j).obsVals ∧
    (h'.samplers j).params = (h.samplers j).params ∧
    (h'.samplers j).prob = (h.samplers j).prob
  spat : ∀ j, (h'.samplers j).spatial = (h.samplers j).spatial ∨ (h'.samplers j).spatial = sp
  vals : ∀ j ∈ T.map Prod.fst, ∃ t o, (h'.samplers j).trueVals = some t ∧
    (h'.samplers j).obsVals = some o ∧ t.length = n ∧ o.length = n ∧
    ((h.samplers j).isObserved = false → o = t)
  views : ∀ e ∈ T, e.2.luminosity = (h.samplers e.1).luminosity ∧ e.2.spatial = sp ∧
    e.2.params = (h.samplers e.1).params
  deps : ∀ T1 e T2, T = T1 ++ e :: T2 → ∀ p ∈ (h.samplers e.1).secondaries,
    (h.samplers p.2).isSampled = true ∨ p.2 ∈ T1.map Prod.fst
  secs : ∀ e ∈ T, e.2.secs = (h.samplers e.1).secondaries.map
    fun p => (p.1, ((h'.samplers p.2).trueVals, (h'.samplers p.2).obsVals))
  selStat : ∀ q, (h'.selectors q).flags = (h.selectors q).flags
  selKeep : ∀ q, q ∉ Q → (∀ e ∈ T, (h.samplers e.1).selector ≠ q) →
    h'.selectors q = h.selectors q
  selPar : ∀ q, (∀ e ∈ T, (h.samplers e.1).selector ≠ q) →
    (h'.selectors q).params = (h.selectors q).params
  selDrawn : ∀ T1 e T2, T = T1 ++ e :: T2 →
    (∀ e' ∈ T2, (h.samplers e'.1).selector ≠ (h.samplers e.1).selector) →
    DrawnFor w n h h' e.1 (h.samplers e.1).selector
      (∀ e' ∈ T1, (h.samplers e'.1).selector ≠ (h.samplers e.1).selector)


theorem split_append {α : Type} {A B T1 T2 : List α} {e : α} (h : A ++ B = T1 ++ e :: T2) :
    (∃ A2, A = T1 ++ e :: A2 ∧ T2 = A2 ++ B) ∨ (∃ B1, B = B1 ++ e :: T2 ∧ T1 = A ++ B1) := by
  rw [List.append_eq_append_iff] at h
  rcases h with ⟨as, h1, h2⟩ | ⟨bs, h1, h2⟩
  · exact .inr ⟨as, h2, h1⟩
  · cases bs with
    | nil => exact .inr ⟨[], by simpa using h2.symm, by simpa using h1.symm⟩
    | cons b bs =>
      simp only [List.cons_append, List.cons.injEq] at h2
      obtain ⟨rfl, h2⟩ := h2
      exact .inl ⟨bs, h1, h2⟩

theorem Eff.refl (w : World F G) (n : Nat) (sp : Option (Spatial F)) (h : Heap F G) :
    Eff w n sp [] h h [] where
  static _ := rfl
  trace := by simp
  nodup := List.nodup_nil
  fresh := by simp
  marks := by simp
  keep := by simp
  spat _ := .inl rfl
  vals := by simp
  views := by simp
  deps := by simp
  secs := by simp
  selStat _ := rfl
  selKeep := by simp
  selPar := by simp
  selDrawn := by simp

theorem Eff.comp {w : World F G} {n : Nat} {sp : Option (Spatial F)} {Q : List Nat}
    {h h1 h2 : Heap F G} {A B : List (Nat × SView F)}
    (a : Eff w n sp Q h h1 A) (b : Eff w n sp [] h1 h2 B) : Eff w n sp Q h h2 (A ++ B) := by
  have hdisj : ∀ j, j ∈ A.map Prod.fst → j ∉ B.map Prod.fst := by
    intro j hA hB
    obtain ⟨e, he, rfl⟩ := List.mem_map.1 hB
    have := b.fresh e he
    have := (a.marks e.1).2 (.inr hA)
    simp_all
  constructor
  · intro j; exact (b.static j).trans (a.static j)
  · rw [b.trace, a.trace, List.append_assoc]
  · rw [List.map_append, List.nodup_append]
    exact ⟨a.nodup, b.nodup, fun x hx y hy e => hdisj x hx (e ▸ hy)⟩
  · intro e he
    rcases List.mem_append.1 he with he | he
    · exact a.fresh e he
    · cases hs : (h.samplers e.1).isSampled with
      | false => rfl
      | true =>
        have := (a.marks e.1).2 (.inl hs)
        rw [b.fresh e he] at this; cases this
  · intro j
    rw [b.marks, a.marks, List.map_append, List.mem_append, or_assoc]
  · intro j hj
    rw [List.map_append, List.mem_append, not_or] at hj
    have ka := a.keep j hj.1
    have kb := b.keep j hj.2
    exact ⟨kb.1.trans ka.1, kb.2.1.trans ka.2.1, kb.2.2.1.trans ka.2.2.1, kb.2.2.2.trans ka.2.2.2⟩
  · intro j
    rcases b.spat j with hb | hb
    · rw [hb]; exact a.spat j
    · exact .inr hb
  · intro j hj
    rw [List.map_append, List.mem_append] at hj
    by_cases hB : j ∈ B.map Prod.fst
    · obtain ⟨t, o, h1', h2', h3, h4, h5⟩ := b.vals j hB
      exact ⟨t, o, h1', h2', h3, h4, by rw [← static_isObserved (a.static j)]; exact h5⟩
    · obtain ⟨t, o, h1', h2', h3, h4, h5⟩ := a.vals j (hj.resolve_right hB)
      have kb := b.keep j hB
      exact ⟨t, o, kb.1.trans h1', kb.2.1.trans h2', h3, h4, h5⟩
  · intro e he
    rcases List.mem_append.1 he with he | he
    · exact a.views e he
    · obtain ⟨v1, v2, v3⟩ := b.views e he
      have hnA : e.1 ∉ A.map Prod.fst := fun hA => hdisj e.1 hA (List.mem_map.2 ⟨e, he, rfl⟩)
      exact ⟨v1.trans (static_luminosity (a.static e.1)), v2, v3.trans (a.keep e.1 hnA).2.2.1⟩
  · intro T1 e T2 hT p hp
    rcases split_append hT with ⟨A2, hA, rfl⟩ | ⟨B1, hB, rfl⟩
    · exact a.deps T1 e A2 hA p hp
    · have := b.deps B1 e T2 hB p (by rw [static_secondaries (a.static e.1)]; exact hp)
      rw [a.marks] at this
      rw [List.map_append, List.mem_append]
      rcases this with (h' | h') | h'
      · exact .inl h'
      · exact .inr (.inl h')
      · exact .inr (.inr h')
  · intro e he
    rcases List.mem_append.1 he with he | he
    · rw [a.secs e he]
      apply List.map_congr_left
      intro p hp
      have hs : (h1.samplers p.2).isSampled = true := by
        obtain ⟨T1, T2, hT⟩ := List.append_of_mem he
        rw [a.marks]
        rcases a.deps T1 e T2 hT p hp with hd | hd
        · exact .inl hd
        · right; rw [hT]; simp only [List.map_append, List.mem_append]; exact .inl hd
      have hnB : p.2 ∉ B.map Prod.fst := by
        intro hB
        obtain ⟨e', he', hee⟩ := List.mem_map.1 hB
        have := b.fresh e' he'
        rw [hee, hs] at this; cases this
      have kb := b.keep p.2 hnB
      rw [kb.1, kb.2.1]
    · rw [b.secs e he, static_secondaries (a.static e.1)]
  · intro q; rw [b.selStat, a.selStat]
  · intro q hq he
    rw [b.selKeep q (by simp), a.selKeep q hq]
    · intro e h'; exact he e (List.mem_append.2 (.inl h'))
    · intro e h'
      rw [static_selector (a.static e.1)]
      exact he e (List.mem_append.2 (.inr h'))
  · intro q he
    rw [b.selPar q, a.selPar q]
    · intro e h'; exact he e (List.mem_append.2 (.inl h'))
    · intro e h'
      rw [static_selector (a.static e.1)]
      exact he e (List.mem_append.2 (.inr h'))
  · intro T1 e T2 hT hlast
    rcases split_append hT with ⟨A2, hA, rfl⟩ | ⟨B1, hB, rfl⟩
    · have hd := a.selDrawn T1 e A2 hA (fun e' h' => hlast e' (List.mem_append.2 (.inl h')))
      obtain ⟨st, g, d1, d2, d3, d4⟩ := hd
      have hq : h2.selectors (h.samplers e.1).selector = h1.selectors (h.samplers e.1).selector := by
        apply b.selKeep _ (by simp)
        intro e' h'
        rw [static_selector (a.static e'.1)]
        exact hlast e' (List.mem_append.2 (.inr h'))
      have hnB : e.1 ∉ B.map Prod.fst := by
        apply hdisj
        rw [hA]; simp
      exact ⟨st, g, by rw [hq]; exact d1, by rw [(b.keep e.1 hnB).2.1]; exact d2, d3, d4⟩
    · have hd := b.selDrawn B1 e T2 hB (by
        intro e' h'
        rw [static_selector (a.static e'.1), static_selector (a.static e.1)]
        exact hlast e' h')
      obtain ⟨st, g, d1, d2, d3, d4⟩ := hd
      rw [static_selector (a.static e.1)] at d1 d3 d4
      refine ⟨st, g, d1, d2, by rw [d3, a.selStat], fun hf => ?_⟩
      rw [d4 fun e' h' => by
          rw [static_selector (a.static e'.1)]; exact hf e' (List.mem_append.2 (.inr h')),
        a.selPar _ fun e' h' => hf e' (List.mem_append.2 (.inl h'))]

theorem giveSelector_eff {w : World F G} {n i : Nat} {sp : Option (Spatial F)} {h h' : Heap F G}
    (hk : giveSelector i h = .ok () h') :
    Eff w n sp [(h.samplers i).selector] h h' [] ∧ h'.samplers = h.samplers := by
  unfold giveSelector at hk
  rw [bind_ok_iff] at hk
  obtain ⟨_, h1, e1, e2⟩ := hk
  have s1 : h1.samplers = h.samplers ∧ h1.trace = h.trace ∧
      (∀ q, (h1.selectors q).flags = (h.selectors q).flags ∧
        (h1.selectors q).params = (h.selectors q).params) ∧
      (∀ q, q ≠ (h.samplers i).selector → h1.selectors q = h.selectors q) := by
    unfold giveDistance at e1
    split at e1
    · split at e1
      · cases e1
      · cases e1
        refine ⟨rfl, rfl, ?_, fun q hq => modSelector_ne _ _ hq⟩
        intro q
        simp only [Heap.modSelector]
        split <;> exact ⟨rfl, rfl⟩
    · cases e1; exact ⟨rfl, rfl, fun _ => ⟨rfl, rfl⟩, fun _ _ => rfl⟩
  have s2 : h'.samplers = h1.samplers ∧ h'.trace = h1.trace ∧
      (∀ q, (h'.selectors q).flags = (h1.selectors q).flags ∧
        (h'.selectors q).params = (h1.selectors q).params) ∧
      (∀ q, q ≠ (h1.samplers i).selector → h'.selectors q = h1.selectors q) := by
    unfold giveLuminosity at e2
    split at e2
    · cases e2; exact ⟨rfl, rfl, fun _ => ⟨rfl, rfl⟩, fun _ _ => rfl⟩
    · cases e2
      refine ⟨rfl, rfl, ?_, fun q hq => modSelector_ne _ _ hq⟩
      intro q
      simp only [Heap.modSelector]
      split <;> exact ⟨rfl, rfl⟩
  have hs : h'.samplers = h.samplers := s2.1.trans s1.1
  refine ⟨?_, hs⟩
  constructor
  · intro j; rw [hs]
  · rw [s2.2.1, s1.2.1]; simp
  · exact List.nodup_nil
  · simp
  · intro j; rw [hs]; simp
  · intro j _; rw [hs]; exact ⟨rfl, rfl, rfl, rfl⟩
  · intro j; rw [hs]; exact .inl rfl
  · simp
  · simp
  · simp
  · simp
  · intro q; rw [(s2.2.2.1 q).1, (s1.2.2.1 q).1]
  · intro q hq _
    simp only [List.mem_singleton] at hq
    rw [s2.2.2.2 q (by rw [s1.1]; exact hq), s1.2.2.2 q hq]
  · intro q _; rw [(s2.2.2.1 q).2, (s1.2.2.1 q).2]
  · simp

theorem prepSecondary_eff {w : World F G} {n i j : Nat} {h h' : Heap F G}
    (hk : prepSecondary i j h = .ok () h') :
    Eff w n (h.samplers i).spatial [] h h' [] ∧
      (h'.samplers j).spatial = (h.samplers i).spatial ∧
      (h.samplers j).isSecondary = true ∧ (h.samplers i).spatial.isSome = true := by
  unfold prepSecondary at hk
  split at hk
  · rename_i hsec
    split at hk
    · cases hk
    · rename_i sp hsp
      simp only [setSpatialValues, modify_apply] at hk
      cases hk
      refine ⟨?_, by simp [hsp], hsec, by simp [hsp]⟩
      have key : ∀ k, (h.modSampler j fun s => { s with spatial := some sp }).samplers k =
          if k = j then { h.samplers k with spatial := some sp } else h.samplers k := fun k => rfl
      constructor
      · intro k; rw [key]; split <;> rfl
      · simp
      · exact List.nodup_nil
      · simp
      · intro k; rw [key]; split <;> simp
      · intro k _; rw [key]; split <;> exact ⟨rfl, rfl, rfl, rfl⟩
      · intro k; rw [key]; split
        · exact .inr hsp.symm
        · exact .inl rfl
      · simp
      · simp
      · simp
      · simp
      · intro q; rfl
      · intro q _ _; rfl
      · intro q _; rfl
      · simp
  · cases hk

theorem finishDraw_eff {w : World F G} {n i : Nat} {h h' : Heap F G}
    (hk : finishDraw w i n h = .ok () h')
    (hfresh : (h.samplers i).isSampled = false)
    (hdeps : ∀ p ∈ (h.samplers i).secondaries, (h.samplers p.2).isSampled = true) :
    Eff w n (h.samplers i).spatial [] h h' [(i, h.view i)] := by
  obtain ⟨f1, f2, f3, t, o, p, pr, ht, ho, hto, f4, g, g', f5⟩ := finishDraw_ok hk
  have hne : ∀ q ∈ (h.samplers i).secondaries, q.2 ≠ i := by
    intro q hq he
    have := hdeps q hq
    rw [he, hfresh] at this; cases this
  constructor
  · intro j
    by_cases hj : j = i
    · subst hj; rw [f4]; rfl
    · rw [f1 j hj]
  · exact f2
  · simp
  · intro e he
    simp only [List.mem_singleton] at he
    subst he; exact hfresh
  · intro j
    by_cases hj : j = i
    · subst hj; rw [f4]; simp
    · rw [f1 j hj]; simp [hj]
  · intro j hj
    simp only [List.map_cons, List.map_nil, List.mem_singleton] at hj
    rw [f1 j hj]; exact ⟨rfl, rfl, rfl, rfl⟩
  · intro j
    by_cases hj : j = i
    · subst hj; rw [f4]; exact .inl rfl
    · rw [f1 j hj]; exact .inl rfl
  · intro j hj
    simp only [List.map_cons, List.map_nil, List.mem_singleton] at hj
    subst hj
    rw [f4]
    exact ⟨t, o, rfl, rfl, ht, ho, hto⟩
  · intro e he
    simp only [List.mem_singleton] at he
    subst he; exact ⟨rfl, rfl, rfl⟩
  · intro T1 e T2 hT q hq
    have : e = (i, h.view i) := by
      have : e ∈ [(i, h.view i)] := by rw [hT]; simp
      simpa using this
    subst this
    exact .inl (hdeps q hq)
  · intro e he
    simp only [List.mem_singleton] at he
    subst he
    show (h.samplers i).secondaries.map _ = _
    apply List.map_congr_left
    intro q hq
    rw [f1 q.2 (hne q hq)]
  · intro q
    by_cases hq : q = (h.samplers i).selector
    · subst hq
      have hkp := selDraw_keeps w.sel w.half w.ninety w.showProgress n
        { sel := { h.selectors (h.samplers i).selector with
              data := { (h.selectors (h.samplers i).selector).data with obsValue := some o } },
            rng := g }
      rw [f5] at hkp
      obtain ⟨k1, k2, k3, k4, k5⟩ := hkp
      simp only [endState] at k1 k2 k3 k4 k5
      simp only [Selector.flags, k1, k2, k3, k4, k5]
    · rw [f3 q hq]
  · intro q _ hq
    exact f3 q fun e => hq (i, h.view i) (by simp) e.symm
  · intro q hq
    rw [f3 q fun e => hq (i, h.view i) (by simp) e.symm]
  · intro T1 e T2 hT _
    have : e = (i, h.view i) := by
      have : e ∈ [(i, h.view i)] := by rw [hT]; simp
      simpa using this
    subst this
    exact ⟨_, g', f5, by rw [f4], rfl, fun _ => rfl⟩

theorem Eff.absorb {w : World F G} {n q : Nat} {sp : Option (Spatial F)}
    {h h' : Heap F G} {T : List (Nat × SView F)} (a : Eff w n sp [q] h h' T)
    (hq : ∃ e ∈ T, (h.samplers e.1).selector = q) : Eff w n sp [] h h' T :=
  { a with
    selKeep := by
      intro r _ hr
      apply a.selKeep r _ hr
      obtain ⟨e, he, rfl⟩ := hq
      simp only [List.mem_singleton]
      exact fun e' => hr e he e'.symm }

theorem Eff.children_eq {w : World F G} {n : Nat} {Q : List Nat} {sp : Option (Spatial F)}
    {h h' : Heap F G} {T : List (Nat × SView F)} (a : Eff w n sp Q h h' T) :
    h'.children = h.children := by
  funext i
  simp only [Heap.children, static_secondaries (a.static i)]

theorem Eff.sampled_of {w : World F G} {n : Nat} {Q : List Nat} {sp : Option (Spatial F)}
    {h h' : Heap F G} {T : List (Nat × SView F)} (a : Eff w n sp Q h h' T) {j : Nat}
    (hj : h.sampled j = true) : h'.sampled j = true := (a.marks j).2 (.inl hj)

/-- **Main induction.**  A successful draw of `i` has the effect `Eff` with the
unsampled samplers reachable from `i`, in dependency order. -/
theorem samplerDraw_eff (w : World F G) (n : Nat) :
    ∀ (k i : Nat) (h h' : Heap F G), Acyclic h.children i →
      samplerDraw w k i n h = .ok () h' →
      ∃ T, Eff w n (h.samplers i).spatial [] h h' T ∧
        ∀ j, j ∈ T.map Prod.fst ↔ ReachU h.children h.sampled i j := by
  intro k
  induction k with
  | zero => intro i h h' _ hk; simp [samplerDraw] at hk
  | succ k ih =>
    intro i h h' hac hk
    rw [samplerDraw, bind_apply, get_apply] at hk
    simp only at hk
    cases hs : (h.samplers i).isSampled with
    | true =>
      simp only [hs, if_true, pure_apply] at hk
      cases hk
      refine ⟨[], Eff.refl _ _ _ _, ?_⟩
      intro j
      simp only [List.map_nil, List.not_mem_nil, false_iff]
      intro hr
      have := hr.left
      simp only [Heap.sampled, hs] at this; cases this
    | false =>
      simp only [hs, Bool.false_eq_true, if_false] at hk
      rw [bind_ok_iff] at hk
      obtain ⟨_, h1, e1, hk⟩ := hk
      rw [bind_ok_iff] at hk
      obtain ⟨_, h2, e2, e3⟩ := hk
      obtain ⟨eff1, hs1⟩ := giveSelector_eff (w := w) (n := n) (sp := (h.samplers i).spatial) e1
      -- the loop over the secondaries
      have loop : ∀ (todo done : Dict Nat) (ha : Heap F G) (T : List (Nat × SView F)),
          (h.samplers i).secondaries = done ++ todo →
          Eff w n (h.samplers i).spatial [(h.samplers i).selector] h ha T →
          (ha.samplers i).spatial = (h.samplers i).spatial →
          (∀ j, j ∈ T.map Prod.fst ↔ ∃ p ∈ done, ReachU h.children h.sampled p.2 j) →
          (∀ p ∈ done, (ha.samplers p.2).isSampled = true) →
          ∀ hb, forEach todo (fun p => do
            prepSecondary i p.2
            samplerDraw w k p.2 n) ha = .ok () hb →
          ∃ T', Eff w n (h.samplers i).spatial [(h.samplers i).selector] h hb T' ∧
            (hb.samplers i).spatial = (h.samplers i).spatial ∧
            (∀ j, j ∈ T'.map Prod.fst ↔
              ∃ p ∈ (h.samplers i).secondaries, ReachU h.children h.sampled p.2 j) ∧
            (∀ p ∈ (h.samplers i).secondaries, (hb.samplers p.2).isSampled = true) := by
        intro todo
        induction todo with
        | nil =>
          intro done ha T hdone heff hspat hT hdn hb hloop
          simp only [forEach_nil] at hloop
          cases hloop
          rw [List.append_nil] at hdone
          rw [hdone]
          exact ⟨T, heff, hspat, hT, hdn⟩
        | cons p todo iht =>
          intro done ha T hdone heff hspat hT hdn hb hloop
          rw [forEach_cons, bind_ok_iff] at hloop
          obtain ⟨_, hc, ec, hrest⟩ := hloop
          rw [bind_ok_iff] at ec
          obtain ⟨_, hm, em, ed⟩ := ec
          obtain ⟨peff, psp, -, -⟩ := prepSecondary_eff (w := w) (n := n) em
          rw [hspat] at peff psp
          have hpi : p.2 ∈ h.children i := by
            simp only [Heap.children, hdone]
            simp
          have heff' := heff.comp peff
          rw [List.append_nil] at heff'
          have hch : hm.children = h.children := heff'.children_eq
          have hacm : Acyclic hm.children p.2 := by
            rw [hch]; exact hac.child hpi
          obtain ⟨Tc, ceff, hTc⟩ := ih p.2 hm hc hacm ed
          rw [psp] at ceff
          have heff2 := heff'.comp ceff
          have hsame : ∀ j, hm.sampled j = ha.sampled j := by
            intro j
            have := peff.marks j
            simp only [List.map_nil, List.not_mem_nil, or_false] at this
            simp only [Heap.sampled]
            exact Bool.eq_iff_iff.2 this
          have hmono : ∀ j, hm.sampled j = false → h.sampled j = false := by
            intro j hj
            cases hh : h.sampled j with
            | false => rfl
            | true => rw [heff'.sampled_of hh] at hj; cases hj
          refine iht (done ++ [p]) hc (T ++ Tc) (by rw [hdone]; simp) heff2 ?_ ?_ ?_ hb hrest
          · rcases ceff.spat i with hh | hh
            · rw [hh]
              rcases peff.spat i with hh2 | hh2
              · rw [hh2]; exact hspat
              · exact hh2
            · exact hh
          · intro j
            rw [List.map_append, List.mem_append, hT, hTc, hch]
            constructor
            · rintro (⟨q, hq, hr⟩ | hr)
              · exact ⟨q, by simp [hq], hr⟩
              · exact ⟨p, by simp, hr.mono hmono⟩
            · rintro ⟨q, hq, hr⟩
              rcases List.mem_append.1 hq with hq | hq
              · exact .inl ⟨q, hq, hr⟩
              · simp only [List.mem_singleton] at hq
                subst hq
                rcases hr.survive_or (smp' := hm.sampled) with hr' | ⟨x, hx, hx0, hxr⟩
                · exact .inr hr'
                · left
                  have hxT : x ∈ T.map Prod.fst := by
                    have := (heff'.marks x).1 hx
                    rcases this with h' | h'
                    · simp only [Heap.sampled] at hx0; rw [hx0] at h'; cases h'
                    · exact h'
                  obtain ⟨q', hq', hr'⟩ := (hT x).1 hxT
                  exact ⟨q', hq', hr'.trans hxr⟩
          · intro q hq
            rcases List.mem_append.1 hq with hq | hq
            · exact ceff.sampled_of (j := q.2) ((hsame q.2).trans (hdn q hq))
            · simp only [List.mem_singleton] at hq
              subst hq
              rw [ceff.marks]
              cases hh : (hm.samplers q.2).isSampled with
              | true => exact .inl rfl
              | false => exact .inr ((hTc q.2).2 (.here hh))
      obtain ⟨T, leff, lsp, lT, ldone⟩ := loop (h.samplers i).secondaries [] h1 [] rfl eff1
        (by rw [hs1]) (by simp) (by simp) h2 e2
      -- `i` was not drawn in the loop
      have hiT : i ∉ T.map Prod.fst := by
        intro hi
        obtain ⟨p, hp, hr⟩ := (lT i).1 hi
        exact hac i (.here i) p.2 (List.mem_map.2 ⟨p, hp, rfl⟩) hr.reach
      have hfresh : (h2.samplers i).isSampled = false := by
        cases hh : (h2.samplers i).isSampled with
        | false => rfl
        | true =>
          rcases (leff.marks i).1 hh with h' | h'
          · rw [hs] at h'; cases h'
          · exact absurd h' hiT
      have hsec2 : (h2.samplers i).secondaries = (h.samplers i).secondaries :=
        static_secondaries (leff.static i)
      have feff := finishDraw_eff e3 hfresh (by rw [hsec2]; exact ldone)
      rw [lsp] at feff
      refine ⟨T ++ [(i, h2.view i)], (leff.comp feff).absorb ⟨(i, h2.view i), by simp, rfl⟩, ?_⟩
      intro j
      rw [List.map_append, List.mem_append, lT]
      simp only [List.map_cons, List.map_nil, List.mem_singleton]
      constructor
      · rintro (⟨p, hp, hr⟩ | rfl)
        · exact .step hs (List.mem_map.2 ⟨p, hp, rfl⟩) hr
        · exact .here hs
      · intro hr
        cases hr with
        | here => exact .inr rfl
        | step _ hc hr =>
          obtain ⟨p, hp, rfl⟩ := List.mem_map.1 hc
          exact .inl ⟨p, hp, hr⟩

end Popsynth
