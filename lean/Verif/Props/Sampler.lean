import Verif.Lemmas.DrawReturns

/-!
# C12–C17: auxiliary samplers

All theorems are for arbitrary sampler code, arbitrary selectors, arbitrary
random states and arbitrary sharing of samplers and selectors.  `fuel` is the
number of Python stack frames available.
-/

set_option linter.unusedSectionVars false
set_option autoImplicit false

namespace Popsynth
open Spec
variable {F G : Type} [LE F] [DecidableLE F] [OfNat F 0] [OfNat F 1]

/-! ### Example used for the non-vacuity checks: a diamond with a shared secondary -/

namespace SamplerExample

/-- Selector primitives over `Nat` numbers and a counter as random state. -/
def env : SelEnv Nat Nat :=
  { bern := fun _ g => (g % 2 == 0, g + 1), validProb := fun p => decide (p ≤ 1),
    softLog := fun _ _ _ => 1, softLin := fun _ _ _ => 1, neg := fun _ => 0 }

/-- True values: the random number plus the first true value of each secondary. -/
def code : SamplerCode Nat Nat :=
  { trueSampler := fun v n g =>
      { trueVals := some (List.replicate n
          (v.secs.foldl (fun a p => a + ((p.2.1.getD []).headD 0)) g)),
        obsVals := v.obsVals, params := v.params, rng := g + 1 }
    obsSampler := fun v n g =>
      { trueVals := v.trueVals, obsVals := some (List.replicate n (100 + g)),
        params := v.params, rng := g + 1 } }

def w : World Nat Nat :=
  { sel := env, half := 0, ninety := 90, showProgress := false, code := fun _ => code }

/-- Positions used in the examples. -/
def sp : Spatial Nat := { distance := [1, 2], theta := [0, 0], phi := [0, 0] }

/-- 0 depends on 1 and 2, which both depend on 3; 4 is unrelated. -/
def heap : Heap Nat Nat :=
  { samplers := fun j => match j with
      | 0 => { name := "a", obsName := "a_obs", secondaries := [("b", 1), ("c", 2)],
               hasSecondary := true, selector := 0, spatial := some sp, luminosity := some [5, 6] }
      | 1 => { name := "b", obsName := "b_obs", secondaries := [("d", 3)], hasSecondary := true,
               isSecondary := true, selector := 1, isObserved := false }
      | 2 => { name := "c", obsName := "c_obs", secondaries := [("d", 3)], hasSecondary := true,
               isSecondary := true, selector := 2 }
      | 3 => { name := "d", obsName := "d_obs", isSecondary := true, selector := 3 }
      | j => { name := "e", obsName := "e_obs", selector := j }
    selectors := fun _ => { kind := .unity }
    rng := 7 }

def rank : Nat → Nat
  | 0 => 2
  | 1 => 1
  | 2 => 1
  | _ => 0

theorem ranked : ∀ i, Ranked heap.children rank i := by
  intro i j _ c hc
  match j with
  | 0 =>
    simp [Heap.children, heap] at hc
    rcases hc with rfl | rfl <;> decide
  | 1 =>
    simp [Heap.children, heap] at hc
    subst hc; decide
  | 2 =>
    simp [Heap.children, heap] at hc
    subst hc; decide
  | 3 => simp [Heap.children, heap] at hc
  | j + 4 => simp [Heap.children, heap] at hc

theorem unsampled (j : Nat) : heap.sampled j = false := by
  match j with
  | 0 => rfl
  | 1 => rfl
  | 2 => rfl
  | 3 => rfl
  | j + 4 => rfl

theorem downClosed : DownClosed heap.children heap.sampled := by
  intro j hj; rw [unsampled j] at hj; cases hj

/-- State after drawing sampler 0. -/
def drawn : Heap Nat Nat := endState (samplerDraw w 10 0 2 heap)

theorem draw_ok : samplerDraw w 10 0 2 heap = .ok () drawn := ok_of_isOk (by decide +kernel)

/-- The shared secondary is sampled once and first; sampler 4 not at all. -/
example : drawn.trace.map Prod.fst = [3, 1, 2, 0] := by decide +kernel
example : (drawn.samplers 0).trueVals = some [45, 45] := by decide +kernel

end SamplerExample

/-! ### C12 -/

/-- **C12 (exactly once, dependencies first).** A draw that returns has run the
`true_sampler`s of exactly the samplers that are reachable through not yet
sampled ones, each once, each after all of its dependencies were sampled, and
each of them now holds `n` true and `n` observed values. -/
theorem C12_draw_exact (w : World F G) (fuel i n : Nat) (h h' : Heap F G)
    (hac : Acyclic h.children i) (hk : samplerDraw w fuel i n h = .ok () h') :
    ∃ T, h'.trace = h.trace ++ T ∧ (T.map Prod.fst).Nodup ∧
      (∀ j, j ∈ T.map Prod.fst ↔ ReachU h.children h.sampled i j) ∧
      (∀ T1 e T2, T = T1 ++ e :: T2 → ∀ c ∈ h.children e.1,
        h.sampled c = true ∨ c ∈ T1.map Prod.fst) ∧
      (∀ j ∈ T.map Prod.fst, ∃ t o, (h'.samplers j).trueVals = some t ∧
        (h'.samplers j).obsVals = some o ∧ t.length = n ∧ o.length = n) ∧
      (∀ j, h'.sampled j = true ↔ h.sampled j = true ∨ j ∈ T.map Prod.fst) := by
  obtain ⟨T, e, hT⟩ := samplerDraw_eff w n fuel i h h' hac hk
  refine ⟨T, e.trace, e.nodup, hT, ?_, ?_, e.marks⟩
  · intro T1 x T2 hx c hc
    obtain ⟨p, hp, rfl⟩ := List.mem_map.1 hc
    exact e.deps T1 x T2 hx p hp
  · intro j hj
    obtain ⟨t, o, h1, h2, h3, h4, -⟩ := e.vals j hj
    exact ⟨t, o, h1, h2, h3, h4⟩

example : Acyclic SamplerExample.heap.children 0 ∧
    samplerDraw SamplerExample.w 10 0 2 SamplerExample.heap = .ok () SamplerExample.drawn :=
  ⟨(SamplerExample.ranked 0).acyclic, SamplerExample.draw_ok⟩

/-- Full C12: a draw samples *every* not yet sampled sampler reachable from it.
**Partial**: true if the dependencies of sampled samplers are sampled (an
invariant of all histories of draws, `C12_draws_keep_dependencies_sampled`);
false if a dependency is attached to an already drawn sampler, see
`C12_violated_attach_after_draw`. -/
theorem C12_draw_all_partial (w : World F G) (fuel i n : Nat) (h h' : Heap F G)
    (hac : Acyclic h.children i) (hd : DownClosed h.children h.sampled)
    (hk : samplerDraw w fuel i n h = .ok () h') :
    (∃ T, h'.trace = h.trace ++ T ∧ (T.map Prod.fst).Nodup ∧
      ∀ j, j ∈ T.map Prod.fst ↔ Reach h.children i j ∧ h.sampled j = false) ∧
    ∀ j, Reach h.children i j → h'.sampled j = true := by
  obtain ⟨T, e, hT⟩ := samplerDraw_eff w n fuel i h h' hac hk
  have hT' : ∀ j, j ∈ T.map Prod.fst ↔ Reach h.children i j ∧ h.sampled j = false := by
    intro j; rw [hT, reachU_iff_of_downClosed hd]
  refine ⟨⟨T, e.trace, e.nodup, hT'⟩, ?_⟩
  intro j hj
  have := (e.marks j)
  rw [hT'] at this
  refine this.2 ?_
  cases hs : h.sampled j with
  | true => exact .inl hs
  | false => exact .inr ⟨hj, rfl⟩

example : DownClosed SamplerExample.heap.children SamplerExample.heap.sampled :=
  SamplerExample.downClosed

/-- **C12 (values).** If the reachable samplers that were sampled before hold `n`
values, then after the draw every reachable sampler holds `n` true and `n`
observed values. -/
theorem C12_all_hold_n (w : World F G) (fuel i n : Nat) (h h' : Heap F G)
    (hac : Acyclic h.children i) (hd : DownClosed h.children h.sampled)
    (hn : ∀ j, Reach h.children i j → h.sampled j = true →
      ∃ t o, (h.samplers j).trueVals = some t ∧ (h.samplers j).obsVals = some o ∧
        t.length = n ∧ o.length = n)
    (hk : samplerDraw w fuel i n h = .ok () h') (j : Nat) (hj : Reach h.children i j) :
    ∃ t o, (h'.samplers j).trueVals = some t ∧ (h'.samplers j).obsVals = some o ∧
        t.length = n ∧ o.length = n := by
  obtain ⟨T, e, hT⟩ := samplerDraw_eff w n fuel i h h' hac hk
  by_cases hjT : j ∈ T.map Prod.fst
  · obtain ⟨t, o, h1, h2, h3, h4, -⟩ := e.vals j hjT
    exact ⟨t, o, h1, h2, h3, h4⟩
  · have hs : h.sampled j = true := by
      cases hs : h.sampled j with
      | true => rfl
      | false => exact absurd ((hT j).2 ((reachU_iff_of_downClosed hd).2 ⟨hj, hs⟩)) hjT
    obtain ⟨t, o, h1, h2, h3, h4⟩ := hn j hj hs
    obtain ⟨k1, k2, -⟩ := e.keep j hjT
    exact ⟨t, o, k1.trans h1, k2.trans h2, h3, h4⟩

/-- **C12 (unreachable).** Whatever happens – also if the draw raises and also on
cyclic graphs – samplers that are not dependencies are untouched. -/
theorem C12_unreachable_untouched (w : World F G) (fuel i n : Nat) (h : Heap F G) (j : Nat)
    (hj : ¬ Reach h.children i j) :
    (endState (samplerDraw w fuel i n h)).samplers j = h.samplers j :=
  (samplerDraw_fr w n fuel i h).off j hj

example : ¬ Reach SamplerExample.heap.children 0 4 := by
  intro h
  have key : ∀ a b, Reach SamplerExample.heap.children a b → a < 4 → b < 4 := by
    intro a b hab
    induction hab with
    | here => exact id
    | @step i c j hc _ ih =>
      intro hi
      apply ih
      match i, hi with
      | 0, _ => simp [Heap.children, SamplerExample.heap] at hc; omega
      | 1, _ => simp [Heap.children, SamplerExample.heap] at hc; omega
      | 2, _ => simp [Heap.children, SamplerExample.heap] at hc; omega
      | 3, _ => simp [Heap.children, SamplerExample.heap] at hc
  exact absurd (key 0 4 h (by omega)) (by omega)

/-- **C12 (acyclicity is needed).** A draw that leads into a cycle of not yet
sampled samplers never returns, whatever the recursion limit. -/
theorem C12_cycle_never_returns (w : World F G) (fuel i n : Nat) (h h' : Heap F G)
    (hc : IntoCycle h.children h.sampled i) : samplerDraw w fuel i n h ≠ .ok () h' :=
  samplerDraw_cycle w n fuel i h h' hc

/-- A sampler that is its own secondary. -/
example : IntoCycle (fun i => if i = 0 then [0] else []) (fun _ => false) 0 :=
  ⟨0, 0, .here rfl, by simp, .here rfl⟩

/-- **C12 (returns).** If the samplers are well behaved on what the framework owes them – a
position satisfying `S`, the luminosity they were given, and the values of their direct
secondaries –, the selectors can be drawn, dependencies have smaller rank, and there are
enough stack frames, then the draw returns, everything drawn has `n` entries, and the sampler
keeps its position. -/
theorem C12_draw_returns (w : World F G) (n : Nat) (rank : Nat → Nat)
    (P : Nat → Selector F G → Prop) (M : Option (List Bool) → Prop) (I : Nat → Obj F → Prop)
    (S : Spatial F → Prop) (L : Nat → Option (List F) → Prop) (fuel i : Nat) (h : Heap F G)
    (hr : Ranked h.children rank i) (hf : rank i < fuel)
    (hgood : ∀ j, Reach h.children i j →
      WellBehaved (w.code j) n (h.samplers j).isObserved (I j) (Sees n S (L j)) ∧
      L j (h.samplers j).luminosity ∧
      Selectable w n (P (h.samplers j).selector) M ∧
      ∀ c ∈ h.children j, (h.samplers c).isSecondary = true)
    (hsp : ∃ sp, (h.samplers i).spatial = some sp ∧ S sp) (hR : Ready n P M I h) :
    ∃ h', samplerDraw w fuel i n h = .ok () h' ∧ Ready n P M I h' ∧ h'.sampled i = true ∧
      (h'.samplers i).spatial = (h.samplers i).spatial :=
  samplerDraw_returns w n rank P M I S L fuel i h hr hf hgood hsp hR

/-- The hypotheses of `C12_draw_returns` hold for the example: `UnitySelection`
can always be drawn. -/
theorem Spec.unity_selectable (w : World F G) (n : Nat) :
    Selectable w n (fun c => c.kind = .unity) (· = some (List.replicate n true)) where
  draws := by
    intro st o hk _
    have : ∀ s : SelSt F G, s.sel.kind = .unity → selDraw w.sel w.half w.ninety w.showProgress n s =
        .ok () { s with sel := { s.sel with selection := some (List.replicate n true) } } := by
      intro s hs
      simp [selDraw, bind_apply, hs, setMask]
    exact ⟨_, this _ hk, hk, rfl⟩
  dist := fun _ _ h => h
  lum := fun _ _ h => h

example : WellBehaved SamplerExample.code 2 true (fun _ => True) (fun _ => True) where
  trueOk := fun v g _ _ => ⟨rfl, trivial, _, rfl, by simp⟩
  obsOk := fun _ v g l _ _ _ hv hl => ⟨rfl, trivial, ⟨l, hv, hl⟩, _, rfl, by simp⟩
  probOk := fun v l _ _ _ _ => ⟨none, rfl, fun q hq => nomatch hq⟩

/-- Code that reads the luminosity and the values of a secondary `"b"`, and fails without
them, is well behaved on the views it is owed. -/
def SamplerExample.needy : SamplerCode Nat Nat where
  trueSampler := fun v _ g => match v.luminosity, v.secs with
    | some l, [(_, (some t, _))] => ⟨none, some (List.zipWith (· + ·) l t), v.obsVals, v.params, g⟩
    | _, _ => ⟨some .attribute, v.trueVals, v.obsVals, v.params, g⟩
  obsSampler := fun v _ g => ⟨none, v.trueVals, v.trueVals, v.params, g⟩

example (n : Nat) : WellBehaved SamplerExample.needy n true (fun _ => True)
    (fun v => Sees n (fun _ => True) (fun o => ∃ l, o = some l ∧ l.length = n) v ∧
      v.secs.length = 1) where
  trueOk := by
    rintro v g ⟨⟨-, ⟨l, hl, hn⟩, hs⟩, h1⟩ _
    obtain ⟨p, hp⟩ := List.length_eq_one_iff.1 h1
    obtain ⟨t, o, hto, ht, -⟩ := hs p (by rw [hp]; simp)
    obtain ⟨k, x⟩ := p
    simp only at hto
    subst hto
    simp only [SamplerExample.needy, hl, hp, true_and]
    exact ⟨_, rfl, by simp [hn, ht]⟩
  obsOk := fun _ v g l _ _ _ hv hl => ⟨rfl, trivial, ⟨l, hv, hl⟩, l, hv, hl⟩
  probOk := fun v l _ _ _ _ => ⟨none, rfl, fun q hq => nomatch hq⟩

/-- It fails on a view without luminosity. -/
example : (SamplerExample.needy.trueSampler ⟨{}, true, none, none, none, none, []⟩ 2 0).err =
    some .attribute := rfl

/-- **C12 (invariant).** Any history of draws – successful or not – keeps the
dependencies of sampled samplers sampled. -/
theorem C12_draws_keep_dependencies_sampled (w : World F G) (fuel : Nat)
    (ops : List (Nat × Nat)) (h : Heap F G) (hd : DownClosed h.children h.sampled) :
    DownClosed (ops.foldl (fun h o => endState (samplerDraw w fuel o.1 o.2 h)) h).children
      (ops.foldl (fun h o => endState (samplerDraw w fuel o.1 o.2 h)) h).sampled := by
  induction ops generalizing h with
  | nil => exact hd
  | cons o ops ih =>
    rw [List.foldl_cons]
    exact ih _ (samplerDraw_downClosed w o.2 fuel o.1 h hd)

/-- **C12 is violated** when a dependency is attached after its parent was drawn:
drawing the parent again returns without sampling the new dependency. -/
theorem C12_violated_attach_after_draw :
    ∃ (w : World Nat Nat) (h h' h'' : Heap Nat Nat),
      samplerDraw w 10 0 2 h = .ok () h' ∧ setSecondarySampler 0 1 h' = .ok () h'' ∧
      Reach h''.children 0 1 ∧ h''.sampled 1 = false ∧
      samplerDraw w 10 0 2 h'' = .ok () h'' := by
  let h : Heap Nat Nat :=
    { samplers := fun j => if j = 0 then { name := "a", obsName := "a_obs", selector := 0 }
        else { name := "b", obsName := "b_obs", selector := 1 }
      selectors := fun _ => { kind := .unity }
      rng := 7 }
  let h' := endState (samplerDraw SamplerExample.w 10 0 2 h)
  refine ⟨SamplerExample.w, h, h', endState (setSecondarySampler 0 1 h'), rfl, rfl, ?_, rfl, rfl⟩
  exact .step (show 1 ∈ [1] by simp) (.here 1)

/-- The invariant that all ways of building a sampler graph keep: dependencies are
flagged as secondary, stored under their name, and a sampler that has dependencies
knows it. -/
def Spec.Attached (h : Heap F G) : Prop :=
  ∀ i, (∀ p ∈ (h.samplers i).secondaries, (h.samplers p.2).isSecondary = true ∧
      p.1 = (h.samplers p.2).name ∧ (h.samplers i).name ∈ (h.samplers p.2).parents) ∧
    ((h.samplers i).hasSecondary = true ↔ (h.samplers i).secondaries ≠ [])

theorem Dict.mem_set {α : Type} {d : Dict α} {k : String} {v : α} {p : String × α}
    (h : p ∈ Dict.set d k v) : p = (k, v) ∨ p ∈ d := by
  induction d with
  | nil => simp [Dict.set] at h; exact .inl h
  | cons q t ih =>
    obtain ⟨k', v'⟩ := q
    simp only [Dict.set] at h
    split at h
    · rename_i e; subst e
      rcases List.mem_cons.1 h with h | h
      · exact .inl h
      · exact .inr (List.mem_cons_of_mem _ h)
    · rcases List.mem_cons.1 h with h | h
      · exact .inr (h ▸ List.mem_cons_self)
      · rcases ih h with h | h
        · exact .inl h
        · exact .inr (List.mem_cons_of_mem _ h)

theorem Dict.set_ne_nil {α : Type} (d : Dict α) (k : String) (v : α) : Dict.set d k v ≠ [] := by
  cases d with
  | nil => simp [Dict.set]
  | cons q t => obtain ⟨k', v'⟩ := q; simp only [Dict.set]; split <;> simp

theorem setSecondarySampler_fields (i j : Nat) (h : Heap F G) :
    ∃ h', setSecondarySampler i j h = .ok () h' ∧ ∀ k,
      (h'.samplers k).name = (h.samplers k).name ∧
      (h'.samplers k).isSampled = (h.samplers k).isSampled ∧
      (h'.samplers k).isSecondary = (if k = j then true else (h.samplers k).isSecondary) ∧
      (h'.samplers k).parents = (if k = j then (h.samplers k).parents ++ [(h.samplers i).name]
        else (h.samplers k).parents) ∧
      (h'.samplers k).secondaries = (if k = i then
        Dict.set (h.samplers k).secondaries (h.samplers j).name j else (h.samplers k).secondaries) ∧
      (h'.samplers k).hasSecondary = (if k = i then true else (h.samplers k).hasSecondary) := by
  refine ⟨_, rfl, fun k => ?_⟩
  by_cases h1 : k = i <;> by_cases h2 : k = j
  · subst h1; subst h2; simp [Heap.modSampler]
  · subst h1; simp [Heap.modSampler, h2]
  · subst h2; simp [Heap.modSampler, h1]
  · simp [Heap.modSampler, h1, h2]

/-- **C12 (attaching).** `i.set_secondary_sampler(j)` returns; afterwards `j` is a
dependency of `i`, found under its name, nobody else's dependencies changed, and the
graph invariant holds if it held before. -/
theorem C12_attach (i j : Nat) (h : Heap F G) :
    ∃ h', setSecondarySampler i j h = .ok () h' ∧
      Dict.get? (h'.samplers i).secondaries (h.samplers j).name = some j ∧
      (∀ nm, nm ≠ (h.samplers j).name →
        Dict.get? (h'.samplers i).secondaries nm = Dict.get? (h.samplers i).secondaries nm) ∧
      (∀ k, k ≠ i → (h'.samplers k).secondaries = (h.samplers k).secondaries) ∧
      (∀ k, h'.sampled k = h.sampled k ∧ (h'.samplers k).name = (h.samplers k).name) ∧
      (Spec.Attached h → Spec.Attached h') := by
  obtain ⟨h', e, f⟩ := setSecondarySampler_fields i j h
  refine ⟨h', e, ?_, ?_, ?_, ?_, ?_⟩
  · rw [(f i).2.2.2.2.1, if_pos rfl, Dict.get?_set_self]
  · intro nm hnm
    rw [(f i).2.2.2.2.1, if_pos rfl, Dict.get?_set_ne _ _ hnm.symm]
  · intro k hk
    rw [(f k).2.2.2.2.1, if_neg hk]
  · exact fun k => ⟨(f k).2.1, (f k).1⟩
  · intro ha k
    have old : ∀ p ∈ (h.samplers k).secondaries, (h'.samplers p.2).isSecondary = true ∧
        p.1 = (h'.samplers p.2).name ∧ (h'.samplers k).name ∈ (h'.samplers p.2).parents := by
      intro p hp
      obtain ⟨h1, h2, h3⟩ := (ha k).1 p hp
      refine ⟨?_, ?_, ?_⟩
      · rw [(f p.2).2.2.1]; split
        · rfl
        · exact h1
      · rw [(f p.2).1]; exact h2
      · rw [(f k).1, (f p.2).2.2.2.1]; split
        · exact List.mem_append_left _ h3
        · exact h3
    refine ⟨?_, ?_⟩
    · intro p hp
      rw [(f k).2.2.2.2.1] at hp
      split at hp
      · rename_i hk
        rcases Dict.mem_set hp with rfl | hp
        · refine ⟨?_, ?_, ?_⟩
          · rw [(f j).2.2.1, if_pos rfl]
          · rw [(f j).1]
          · rw [(f k).1, (f j).2.2.2.1, if_pos rfl, hk]; simp
        · exact old p hp
      · exact old p hp
    · rw [(f k).2.2.2.2.1, (f k).2.2.2.2.2]
      split
      · simp [Dict.set_ne_nil]
      · exact (ha k).2

/-- **C12 (built graphs).** In every graph built from new samplers by any sequence of
`set_secondary_sampler` calls the hypothesis of `C12_draw_returns` on the secondary
flags holds. -/
theorem C12_built_graphs (h0 : Heap F G)
    (hnew : ∀ i, (h0.samplers i).secondaries = [] ∧ (h0.samplers i).hasSecondary = false)
    (ops : List (Nat × Nat)) :
    Spec.Attached (ops.foldl (fun h o => endState (setSecondarySampler o.1 o.2 h)) h0) := by
  have h0' : Spec.Attached h0 := fun i => by
    rw [(hnew i).1, (hnew i).2]; simp
  have key : ∀ (ops : List (Nat × Nat)) (h : Heap F G), Spec.Attached h →
      Spec.Attached (ops.foldl (fun h o => endState (setSecondarySampler o.1 o.2 h)) h) := by
    intro ops
    induction ops with
    | nil => exact fun _ h => h
    | cons o ops ih =>
      intro h hh
      rw [List.foldl_cons]
      obtain ⟨h', e, _, _, _, _, k⟩ := C12_attach o.1 o.2 h
      rw [e]
      exact ih h' (k hh)
  exact key ops h0 h0'

example : ∃ h', setSecondarySampler 4 0 SamplerExample.heap = .ok () h' ∧
    (h'.samplers 4).secondaries = [("a", 0)] ∧ (h'.samplers 0).isSecondary = true :=
  ⟨_, rfl, by decide +kernel, by decide +kernel⟩

/-! ### C13 -/

/-- **C13.** Drawing an already drawn sampler changes nothing at all. -/
theorem C13_no_redraw (w : World F G) (fuel i n : Nat) (h : Heap F G)
    (hs : h.sampled i = true) : samplerDraw w (fuel + 1) i n h = .ok () h := by
  simp only [Heap.sampled] at hs
  rw [samplerDraw, bind_apply, get_apply]
  simp only [hs, if_true, pure_apply]

example : SamplerExample.drawn.sampled 0 = true := by decide +kernel

/-- **C13 (values survive).** Drawing some sampler never changes the values of a
sampler that is already sampled, whatever size is requested. -/
theorem C13_values_survive (w : World F G) (fuel b n : Nat) (h h' : Heap F G)
    (hac : Acyclic h.children b) (hk : samplerDraw w fuel b n h = .ok () h') (j : Nat)
    (hs : h.sampled j = true) :
    (h'.samplers j).trueVals = (h.samplers j).trueVals ∧
    (h'.samplers j).obsVals = (h.samplers j).obsVals := by
  obtain ⟨T, e, -⟩ := samplerDraw_eff w n fuel b h h' hac hk
  have hjT : j ∉ T.map Prod.fst := by
    intro hj
    obtain ⟨x, hx, rfl⟩ := List.mem_map.1 hj
    have := e.fresh x hx
    simp only [Heap.sampled] at hs
    rw [this] at hs; cases hs
  exact ⟨(e.keep j hjT).1, (e.keep j hjT).2.1⟩

/-- **C13 (sharing).** Draw `a`, then `b`.  If `b`'s `true_sampler` runs in the second
draw, then what it sees of a dependency `s` that was drawn for `a` are exactly
the values `s` got there – and these are still the values of `s` afterwards. -/
theorem C13_shared_values (w : World F G) (fuel a b n m : Nat) (h h1 h2 : Heap F G)
    (hac : Acyclic h.children a) (hacb : Acyclic h.children b)
    (ka : samplerDraw w fuel a n h = .ok () h1) (kb : samplerDraw w fuel b m h1 = .ok () h2) :
    ∃ T, h2.trace = h1.trace ++ T ∧ ∀ e ∈ T, ∀ p ∈ (h.samplers e.1).secondaries,
      (p.1, ((h2.samplers p.2).trueVals, (h2.samplers p.2).obsVals)) ∈ e.2.secs ∧
      (h1.sampled p.2 = true → (h2.samplers p.2).trueVals = (h1.samplers p.2).trueVals ∧
        (h2.samplers p.2).obsVals = (h1.samplers p.2).obsVals) := by
  obtain ⟨T1, e1, -⟩ := samplerDraw_eff w n fuel a h h1 hac ka
  have hb : Acyclic h1.children b := by rw [e1.children_eq]; exact hacb
  obtain ⟨T, e, -⟩ := samplerDraw_eff w m fuel b h1 h2 hb kb
  refine ⟨T, e.trace, ?_⟩
  intro x hx p hp
  constructor
  · rw [e.secs x hx, static_secondaries (e1.static x.1)]
    exact List.mem_map.2 ⟨p, hp, rfl⟩
  · intro hs
    exact C13_values_survive w fuel b m h1 h2 hb kb p.2 hs

/-! ### C14 -/

/-- **C14.** After a draw, every drawn sampler without observation has observed
values equal to its true values. -/
theorem C14_unobserved_equals_true (w : World F G) (fuel i n : Nat) (h h' : Heap F G)
    (hac : Acyclic h.children i) (hk : samplerDraw w fuel i n h = .ok () h') (j : Nat)
    (hj : ReachU h.children h.sampled i j) (ho : (h.samplers j).isObserved = false) :
    ∃ t, (h'.samplers j).trueVals = some t ∧ (h'.samplers j).obsVals = some t ∧ t.length = n := by
  obtain ⟨T, e, hT⟩ := samplerDraw_eff w n fuel i h h' hac hk
  obtain ⟨t, o, h1, h2, h3, h4, h5⟩ := e.vals j ((hT j).2 hj)
  exact ⟨t, h1, by rw [h2, h5 ho], h3⟩

example : ReachU SamplerExample.heap.children SamplerExample.heap.sampled 0 1 ∧
    (SamplerExample.heap.samplers 1).isObserved = false :=
  ⟨.step rfl (show 1 ∈ [1, 2] by simp) (.here rfl), rfl⟩

/-- Sampler code whose `observation_sampler` leaves the observed values alone, as the
base class does (auxiliary_sampler.py:716-718 returns the true values without
storing them). -/
def Spec.NeverObserves (c : SamplerCode F G) : Prop :=
  (∀ v n g, (c.trueSampler v n g).obsVals = v.obsVals) ∧
  (∀ v n g, (c.obsSampler v n g).obsVals = v.obsVals)

theorem finishDraw_neverObserves (w : World F G) (i n : Nat) (h h' : Heap F G)
    (hc : NeverObserves (w.code i)) (ho : (h.samplers i).isObserved = true)
    (hn : (h.samplers i).obsVals = none) : finishDraw w i n h ≠ .ok () h' := by
  intro hk
  unfold finishDraw at hk
  rw [bind_ok_iff] at hk
  obtain ⟨_, h1, e1, hk⟩ := hk
  rw [modify_apply] at e1; cases e1
  rw [bind_ok_iff] at hk
  obtain ⟨_, h2, e2, hk⟩ := hk
  have key : ∀ (c : SView F → Nat → G → SOut F G) (a b : Heap F G),
      (∀ v n g, (c v n g).obsVals = v.obsVals) → (a.samplers i).obsVals = none →
      (a.samplers i).isObserved = true → runCode c i n a = .ok () b →
      (b.samplers i).obsVals = none ∧ (b.samplers i).isObserved = true := by
    intro c a b hcc ha hio hr
    unfold runCode at hr
    cases he : (c (a.view i) n a.rng).err with
    | some e => simp only [he] at hr; cases hr
    | none =>
      simp only [he] at hr
      cases hr
      constructor
      · simp only [modSampler_same, hcc]; exact ha
      · simp only [modSampler_same]; exact hio
  obtain ⟨o2, i2⟩ := key _ _ _ hc.1 (by exact hn) (by exact ho) e2
  rw [bind_ok_iff] at hk
  obtain ⟨_, h3, e3, hk⟩ := hk
  unfold observe at e3
  simp only [i2, if_true] at e3
  obtain ⟨o3, i3⟩ := key _ _ _ hc.2 o2 i2 e3
  rw [bind_ok_iff] at hk
  obtain ⟨_, h4, e4, hk⟩ := hk
  rw [modify_apply] at e4; cases e4
  rw [bind_ok_iff] at hk
  obtain ⟨_, h5, e5, hk⟩ := hk
  rw [get_apply] at e5; cases e5
  rw [bind_ok_iff] at hk
  obtain ⟨_, h6, e6, hk⟩ := hk
  rw [pyAssert_ok_iff] at e6; obtain ⟨-, rfl⟩ := e6
  rw [bind_ok_iff] at hk
  obtain ⟨_, h7, e7, hk⟩ := hk
  rw [pyAssert_ok_iff] at e7
  simp only [modSelector_samplers, o3, lenIs] at e7
  exact absurd e7.1 (by decide)

/-- **C14 (no observation code).** An observed sampler whose class does not assign
observed values can never be drawn, nor can any sampler depending on it. -/
theorem C14_unassigned_never_drawn (w : World F G) (fuel i n : Nat) (h h' : Heap F G) (j : Nat)
    (hac : Acyclic h.children i) (hj : ReachU h.children h.sampled i j)
    (hc : NeverObserves (w.code j)) (ho : (h.samplers j).isObserved = true)
    (hn : (h.samplers j).obsVals = none) : samplerDraw w fuel i n h ≠ .ok () h' := by
  intro hk
  obtain ⟨T, e, hT⟩ := samplerDraw_eff w n fuel i h h' hac hk
  -- generalise over the path: the draw of `j` itself happens inside
  have gen : ∀ (k i : Nat) (h h' : Heap F G), Acyclic h.children i →
      samplerDraw w k i n h = .ok () h' → (h.samplers j).isObserved = true →
      (h.samplers j).obsVals = none → h.sampled j = false → h'.sampled j = false := by
    intro k
    induction k with
    | zero => intro i h h' _ hk; simp [samplerDraw] at hk
    | succ k ih =>
      intro i h h' hac hk ho hn hs0
      rw [samplerDraw, bind_apply, get_apply] at hk
      simp only at hk
      cases hs : (h.samplers i).isSampled with
      | true => simp only [hs, if_true, pure_apply] at hk; cases hk; exact hs0
      | false =>
        simp only [hs, Bool.false_eq_true, if_false] at hk
        rw [bind_ok_iff] at hk
        obtain ⟨_, h1, e1, hk⟩ := hk
        rw [bind_ok_iff] at hk
        obtain ⟨_, h2, e2, e3⟩ := hk
        have hs1 : h1.samplers = h.samplers := by
          have := giveSelector_samplers i h
          rw [e1] at this; exact this
        have inv : (∀ x, (h2.samplers x).static = (h.samplers x).static) ∧
            (h2.samplers j).obsVals = none ∧ h2.sampled j = false := by
          refine forEach_ok_induct (P := fun t : Heap F G =>
            (∀ x, (t.samplers x).static = (h.samplers x).static) ∧
            (t.samplers j).obsVals = none ∧ t.sampled j = false) ?_ ?_ e2
          · refine ⟨fun x => by rw [hs1], by rw [hs1]; exact hn, ?_⟩
            simp only [Heap.sampled, hs1]; exact hs0
          · rintro p hp a b ⟨a1, a2, a3⟩ hab
            rw [bind_ok_iff] at hab
            obtain ⟨_, m, em, ed⟩ := hab
            obtain ⟨peff, -, -, -⟩ := prepSecondary_eff (w := w) (n := n) em
            have hst : ∀ x, (m.samplers x).static = (h.samplers x).static :=
              fun x => (peff.static x).trans (a1 x)
            have hcm : m.children = h.children := by
              funext x; simp only [Heap.children, static_secondaries (hst x)]
            have mo : (m.samplers j).obsVals = none := (peff.keep j (by simp)).2.1.trans a2
            have ms : m.sampled j = false := by
              cases hh : m.sampled j with
              | false => rfl
              | true =>
                have := (peff.marks j).1 hh
                simp only [List.map_nil, List.not_mem_nil, or_false] at this
                simp only [Heap.sampled] at a3; rw [a3] at this; cases this
            have hcc : p.2 ∈ h.children i := List.mem_map.2 ⟨p, hp, rfl⟩
            have hacm : Acyclic m.children p.2 := by rw [hcm]; exact hac.child hcc
            have bs := ih p.2 m b hacm ed
              (by rw [static_isObserved (hst j)]; exact ho) mo ms
            obtain ⟨T', e', -⟩ := samplerDraw_eff w n k p.2 m b hacm ed
            have hjT : j ∉ T'.map Prod.fst := by
              intro hh
              have := (e'.marks j).2 (.inr hh)
              simp only [Heap.sampled] at bs; rw [bs] at this; cases this
            exact ⟨fun x => (e'.static x).trans (hst x), (e'.keep j hjT).2.1.trans mo, bs⟩
        by_cases hji : j = i
        · subst hji
          exact absurd e3 (finishDraw_neverObserves w j n h2 h' hc
            (by rw [static_isObserved (inv.1 j)]; exact ho) inv.2.1)
        · have := (finishDraw_ok e3).1 j hji
          simp only [Heap.sampled, this]; exact inv.2.2
  have h1 := gen fuel i h h' hac hk ho hn hj.right
  have h2 := (e.marks j).2 (.inr ((hT j).2 hj))
  simp only [Heap.sampled] at h1; rw [h1] at h2; cases h2

/-- The base-class observation sampler. -/
def Spec.baseCode : SamplerCode Nat Nat :=
  { trueSampler := fun v n g => { trueVals := some (List.replicate n g), obsVals := v.obsVals,
                                  params := v.params, rng := g + 1 }
    obsSampler := fun v _ g => { trueVals := v.trueVals, obsVals := v.obsVals,
                                 params := v.params, rng := g } }
example : NeverObserves Spec.baseCode := ⟨fun _ _ _ => rfl, fun _ _ _ => rfl⟩

/-- **C14 (raising observation code).** If the `observation_sampler` of an observed
sampler always raises – as `BrokenPowerLawAuxSampler` does, which has no `sigma` –
a sampler can be drawn only if it is unobserved. -/
theorem C14_raising_never_drawn (w : World F G) (fuel i n : Nat) (h h' : Heap F G)
    (hu : h.sampled i = false) (hsec : (h.samplers i).secondaries = [])
    (hc : ∀ v g, ((w.code i).obsSampler v n g).err.isSome = true)
    (ho : (h.samplers i).isObserved = true) : samplerDraw w fuel i n h ≠ .ok () h' := by
  intro hk
  cases fuel with
  | zero => simp [samplerDraw] at hk
  | succ k =>
    simp only [Heap.sampled] at hu
    rw [samplerDraw, bind_apply, get_apply] at hk
    simp only [hu, Bool.false_eq_true, if_false, hsec] at hk
    rw [bind_ok_iff] at hk
    obtain ⟨_, h1, e1, hk⟩ := hk
    rw [bind_ok_iff] at hk
    obtain ⟨_, h2, e2, hk⟩ := hk
    have hs1 : h1.samplers = h.samplers := by
      have := giveSelector_samplers i h
      rw [e1] at this; exact this
    simp only [forEach_nil] at e2; cases e2
    unfold finishDraw at hk
    rw [bind_ok_iff] at hk
    obtain ⟨_, h2, e2, hk⟩ := hk
    rw [modify_apply] at e2; cases e2
    rw [bind_ok_iff] at hk
    obtain ⟨_, h3, e3, hk⟩ := hk
    obtain ⟨t, o, p, g, rfl⟩ := runCode_ok e3
    rw [bind_ok_iff] at hk
    obtain ⟨_, h4, e4, -⟩ := hk
    unfold observe at e4
    simp only [modSampler_same, hs1, ho, if_true] at e4
    unfold runCode at e4
    simp only at e4
    split at e4
    · rename_i he
      have hcc : ∀ v g, ((w.code i).obsSampler v n g).err ≠ none := by
        intro v g hn
        have := hc v g
        rw [hn] at this; cases this
      exact hcc _ _ he
    · cases e4

/-! ### C15 -/

/-- **C15.** After `reset()` nothing reachable is marked as sampled, samplers that were
sampled have dropped their values, everything else about them is kept; unreachable
samplers, unsampled samplers and the random state are untouched. -/
theorem C15_reset (fuel i : Nat) (h h' : Heap F G) (hk : samplerReset fuel i h = .ok () h') :
    (∀ j, Reach h.children i j → h'.sampled j = false) ∧
    (∀ j, Reach h.children i j → h.sampled j = true → h'.samplers j =
      { h.samplers j with isSampled := false, obsVals := none, trueVals := none }) ∧
    (∀ j, ¬ Reach h.children i j → h'.samplers j = h.samplers j) ∧
    (∀ j, h.sampled j = false → h'.samplers j = h.samplers j) ∧
    h'.rng = h.rng := by
  have e := samplerReset_eff fuel i h
  rw [hk] at e
  have hclear := samplerReset_clears fuel i h h' hk
  refine ⟨hclear, ?_, e.off, e.unsampled, e.rng⟩
  intro j hj hs
  rcases e.shape j with h1 | h1
  · have h2 := hclear j hj
    have h1' : h'.samplers j = h.samplers j := h1
    simp only [Heap.sampled, h1'] at h2 hs
    rw [hs] at h2; cases h2
  · exact h1

example : ∃ h', samplerReset 10 0 SamplerExample.drawn = .ok () h' ∧ h'.sampled 3 = false ∧
    SamplerExample.drawn.sampled 3 = true :=
  ⟨_, ok_of_isOk (by decide +kernel), by decide +kernel, by decide +kernel⟩

/-- **C15 (returns).** On an acyclic graph `reset()` never raises. -/
theorem C15_reset_returns (rank : Nat → Nat) (fuel i : Nat) (h : Heap F G)
    (hr : Ranked h.children rank i) (hf : rank i < fuel) :
    ∃ h', samplerReset fuel i h = .ok () h' :=
  samplerReset_returns rank fuel i h hr hf

/-- **C15 (redraw).** A draw after a reset runs the `true_sampler` of every reachable
sampler exactly once again. -/
theorem C15_redraw_after_reset (w : World F G) (fuel i n : Nat) (h h1 h2 : Heap F G)
    (hac : Acyclic h.children i) (hr : samplerReset fuel i h = .ok () h1)
    (hk : samplerDraw w fuel i n h1 = .ok () h2) :
    ∃ T, h2.trace = h1.trace ++ T ∧ (T.map Prod.fst).Nodup ∧
      ∀ j, j ∈ T.map Prod.fst ↔ Reach h.children i j := by
  have e := samplerReset_eff fuel i h
  rw [hr] at e
  have hclear := samplerReset_clears fuel i h h1 hr
  have hch : h1.children = h.children := e.children
  obtain ⟨T, e2, hT⟩ := samplerDraw_eff w n fuel i h1 h2 (by rw [hch]; exact hac) hk
  refine ⟨T, e2.trace, e2.nodup, ?_⟩
  intro j
  rw [hT, hch]
  constructor
  · exact fun hj => hj.reach
  · intro hj
    have : ∀ x y, Reach h.children x y → Reach h.children i x →
        ReachU h.children h1.sampled x y := by
      intro x y hxy
      induction hxy with
      | here x => intro hx; exact .here (hclear x hx)
      | @step x c y hc _ ih =>
        intro hx
        exact .step (hclear x hx) hc (ih (hx.trans (.step hc (.here _))))
    exact this i j hj (.here i)

example : ∃ h1 h2, samplerReset 10 0 SamplerExample.drawn = .ok () h1 ∧
    samplerDraw SamplerExample.w 10 0 2 h1 = .ok () h2 ∧
    (h2.trace.map Prod.fst) = [3, 1, 2, 0, 3, 1, 2, 0] :=
  ⟨_, _, ok_of_isOk (by decide +kernel), ok_of_isOk (by decide +kernel), by decide +kernel⟩

/-- **C15 (what reset does not do).** With a secondary shared by `a` and `b`, resetting
and redrawing only `a` gives the secondary new values while `b` keeps the values it
computed from the old ones, even if `b` is drawn again. -/
theorem C15_shared_secondary_goes_stale :
    ∃ (w : World Nat Nat) (h0 h1 h2 h3 h4 h5 : Heap Nat Nat),
      samplerDraw w 10 0 1 h0 = .ok () h1 ∧ samplerDraw w 10 1 1 h1 = .ok () h2 ∧
      samplerReset 10 0 h2 = .ok () h3 ∧ samplerDraw w 10 0 1 h3 = .ok () h4 ∧
      samplerDraw w 10 1 1 h4 = .ok () h5 ∧
      -- `b` (sampler 1) copies its secondary (sampler 2)
      (h2.samplers 1).trueVals = (h2.samplers 2).trueVals ∧
      (h5.samplers 1).trueVals ≠ (h5.samplers 2).trueVals := by
  let copy : SamplerCode Nat Nat :=
    { trueSampler := fun v _ g =>
        { trueVals := (v.secs.headD ("", none, none)).2.1, obsVals := v.obsVals,
          params := v.params, rng := g + 1 }
      obsSampler := SamplerExample.code.obsSampler }
  let w : World Nat Nat :=
    { SamplerExample.w with code := fun j => if j = 2 then SamplerExample.code else copy }
  let h0 : Heap Nat Nat :=
    { samplers := fun j => match j with
        | 0 => { name := "a", obsName := "a_obs", secondaries := [("s", 2)], hasSecondary := true,
                 selector := 0, spatial := some SamplerExample.sp }
        | 1 => { name := "b", obsName := "b_obs", secondaries := [("s", 2)], hasSecondary := true,
                 selector := 1, spatial := some SamplerExample.sp }
        | _ => { name := "s", obsName := "s_obs", isSecondary := true, selector := 2 }
      selectors := fun _ => { kind := .unity }
      rng := 0 }
  exact ⟨w, h0, _, _, _, _, _, ok_of_isOk (by decide +kernel), ok_of_isOk (by decide +kernel),
    ok_of_isOk (by decide +kernel), ok_of_isOk (by decide +kernel), ok_of_isOk (by decide +kernel),
    by decide +kernel, by decide +kernel⟩

/-! ### C16 -/

/-- **C16 (one sampler).** Collecting from sampler `i` reports every sampler reachable
from it, once, with its values and its selector, and nothing else – if the names
are pairwise distinct and non-empty. -/
theorem C16_reports (fuel i : Nat) (h : Heap F G) (st : Storage F)
    (hwired : ∀ j, (h.samplers j).hasSecondary = false → (h.samplers j).secondaries = [])
    (hne : ∀ j, Reach h.children i j → (h.samplers j).name ≠ "")
    (hinj : ∀ a b, Reach h.children i a → Reach h.children i b →
      (h.samplers a).name = (h.samplers b).name → a = b)
    (hk : secProps h fuel i = .ok st) :
    (Dict.keys st).Nodup ∧
    ∀ nm c, Dict.get? st nm = some c ↔ ∃ j, Reach h.children i j ∧ (h.samplers j).name = nm ∧
      c = { name := (h.samplers j).name, trueVals := (h.samplers j).trueVals,
            obsVals := (h.samplers j).obsVals, selection := (h.samplers j).selector,
            prob := (h.samplers j).probability } :=
  let r := secProps_reports h hwired fuel i st hne hinj hk
  ⟨r.nodup, r.iff⟩

/-- **C16 (probabilities).** The probabilities reported for a sampler are its own if it has some, and
otherwise one for every object, as many as there are true values. -/
theorem C16_probability (fuel i : Nat) (h : Heap F G) (st : Storage F)
    (hwired : ∀ j, (h.samplers j).hasSecondary = false → (h.samplers j).secondaries = [])
    (hne : ∀ j, Reach h.children i j → (h.samplers j).name ≠ "")
    (hinj : ∀ a b, Reach h.children i a → Reach h.children i b →
      (h.samplers a).name = (h.samplers b).name → a = b)
    (hk : secProps h fuel i = .ok st) (j : Nat) (hj : Reach h.children i j) :
    ∃ c, Dict.get? st (h.samplers j).name = some c ∧
      (∀ p, (h.samplers j).prob = some p → c.prob = p) ∧
      (∀ t, (h.samplers j).prob = none → c.trueVals = some t → c.prob = List.replicate t.length 1) := by
  refine ⟨_, ((C16_reports fuel i h st hwired hne hinj hk).2 _ _).2 ⟨j, hj, rfl, rfl⟩, ?_, ?_⟩
  · intro p hp
    simp only [Sampler.probability, hp]
  · intro t hp ht
    simp only at ht
    simp only [Sampler.probability, hp, ht, List.map_const']

example : ∃ st, secProps SamplerExample.drawn 10 0 = .ok st ∧
    Dict.keys st = ["d", "b", "c", "a"] := by
  obtain ⟨st, hst⟩ := secProps_returns SamplerExample.drawn SamplerExample.rank 10 0
    (by
      obtain ⟨T, e, -⟩ := samplerDraw_eff SamplerExample.w 2 10 0 _ _
        (SamplerExample.ranked 0).acyclic SamplerExample.draw_ok
      rw [e.children_eq]; exact SamplerExample.ranked 0) (by decide)
  refine ⟨st, hst, ?_⟩
  have : (secProps SamplerExample.drawn 10 0).toOption.map Dict.keys =
      some ["d", "b", "c", "a"] := by decide +kernel
  rw [hst] at this
  simpa [Except.toOption] using this

/-- **C16 (returns).** On an acyclic graph collecting never raises. -/
theorem C16_collect_returns (rank : Nat → Nat) (fuel i : Nat) (h : Heap F G)
    (hr : Ranked h.children rank i) (hf : rank i < fuel) :
    ∃ st, secProps h fuel i = .ok st :=
  secProps_returns h rank fuel i hr hf

/-- **C16 needs distinct names.** Two samplers with the same name: one report is lost
(and with it that sampler's selection). -/
theorem C16_name_collision_loses_report :
    ∃ (h : Heap Nat Nat) (st : Storage Nat), secProps h 10 0 = .ok st ∧
      Reach h.children 0 2 ∧ (∀ p ∈ st, p.2.trueVals ≠ (h.samplers 2).trueVals) := by
  let h : Heap Nat Nat :=
    { samplers := fun j => match j with
        | 0 => { name := "a", obsName := "a_obs", secondaries := [("b", 1)], hasSecondary := true,
                 trueVals := some [0] }
        | 1 => { name := "b", obsName := "b_obs", secondaries := [("b", 2)], hasSecondary := true,
                 trueVals := some [1] }
        | _ => { name := "b", obsName := "b_obs", trueVals := some [2] }
      selectors := fun _ => { kind := .unity }
      rng := 0 }
  refine ⟨h, _, rfl, .step (show 1 ∈ [1] by simp) (.step (show 2 ∈ [2] by simp) (.here 2)), ?_⟩
  decide

/-- **C16 needs non-empty names.** A sampler whose name is the empty string is dropped
when a sibling is collected after it (`DotMap.empty` treats it as empty). -/
theorem C16_empty_name_loses_report :
    ∃ (h : Heap Nat Nat) (st : Storage Nat), secProps h 10 0 = .ok st ∧
      Reach h.children 0 1 ∧ (h.samplers 1).name = "" ∧ Dict.get? st "" = none := by
  let h : Heap Nat Nat :=
    { samplers := fun j => match j with
        | 0 => { name := "a", obsName := "a_obs", secondaries := [("", 1), ("c", 2)],
                 hasSecondary := true, trueVals := some [0] }
        | 1 => { name := "", obsName := "_obs", trueVals := some [1] }
        | _ => { name := "c", obsName := "c_obs", trueVals := some [2] }
      selectors := fun _ => { kind := .unity }
      rng := 0 }
  exact ⟨h, _, rfl, .step (show 1 ∈ [1, 2] by simp) (.here 1), rfl, rfl⟩

/-! ### C17 (inside one draw; see `Verif/Props/Survey.lean` for whole surveys) -/

/-- **C17 (positions).** Every sampler whose `true_sampler` runs during a draw of `i`
sees the positions that `i` was given. -/
theorem C17_draw_positions (w : World F G) (fuel i n : Nat) (h h' : Heap F G)
    (hac : Acyclic h.children i) (hk : samplerDraw w fuel i n h = .ok () h') :
    ∃ T, h'.trace = h.trace ++ T ∧ ∀ e ∈ T, e.2.spatial = (h.samplers i).spatial := by
  obtain ⟨T, e, -⟩ := samplerDraw_eff w n fuel i h h' hac hk
  exact ⟨T, e.trace, fun x hx => (e.views x hx).2.1⟩

/-- **C17 (luminosity).** A draw hands no luminosity down: every sampler that runs sees
the luminosity it had before the draw of `i` started. -/
theorem C17_draw_luminosity (w : World F G) (fuel i n : Nat) (h h' : Heap F G)
    (hac : Acyclic h.children i) (hk : samplerDraw w fuel i n h = .ok () h') :
    ∃ T, h'.trace = h.trace ++ T ∧ ∀ e ∈ T, e.2.luminosity = (h.samplers e.1).luminosity := by
  obtain ⟨T, e, -⟩ := samplerDraw_eff w n fuel i h h' hac hk
  exact ⟨T, e.trace, fun x hx => (e.views x hx).1⟩

end Popsynth
