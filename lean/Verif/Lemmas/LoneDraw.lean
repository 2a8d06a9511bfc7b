import Verif.Lemmas.DrawReturns

/-!
# Drawing one sampler without secondary samplers, step by step
-/

set_option autoImplicit false
set_option linter.unusedSectionVars false

namespace Popsynth

variable {F G : Type} [LE F] [DecidableLE F] [OfNat F 0] [OfNat F 1]

/-- What the selector of a sampler has been given when it draws. -/
def givenTo (c : Selector F G) (usesDistance : Bool) (r l o : List F) : Selector F G :=
  { c with data := { c.data with
      distance := if usesDistance then some r else c.data.distance
      luminosity := some l
      obsValue := some o } }

theorem lone_draw {w : World F G} {k i n : Nat} {h : Heap F G} {s : Sampler F} (hi : h.samplers i = s)
    {ls ts os : List F} {v : Spatial F} {p1 p2 : Obj F} {g1 g2 g3 : G} {sel' : Selector F G}
    {pr : Option (List F)}
    (hs : s.isSampled = false) (hsec : s.secondaries = []) (hl : s.luminosity = some ls)
    (hsp : s.spatial = some v)
    (ht : (w.code i).trueSampler (h.view i) n h.rng =
      { trueVals := some ts, obsVals := s.obsVals, params := p1, rng := g1 })
    (ho : if s.isObserved = true then
      (w.code i).obsSampler { h.view i with trueVals := some ts, params := p1 } n g1 =
        { trueVals := some ts, obsVals := some os, params := p2, rng := g2 }
      else os = ts ∧ p2 = p1 ∧ g2 = g1)
    (hsel : selDraw w.sel w.half w.ninety w.showProgress n
      { sel := givenTo (h.selectors s.selector) s.usesDistance v.distance ls os, rng := g2 } =
      .ok () { sel := sel', rng := g3 })
    (hp : (w.code i).prob { h.view i with trueVals := some ts, obsVals := some os, params := p2 } = .ok pr)
    (lt : ts.length = n) (lo : os.length = n) :
    ∃ h', samplerDraw w (k + 1) i n h = .ok () h' ∧ h'.rng = g3 ∧
      (∀ j, j ≠ i → h'.samplers j = h.samplers j) ∧
      (∀ q, q ≠ s.selector → h'.selectors q = h.selectors q) ∧
      h'.selectors s.selector = sel' ∧
      h'.samplers i = { s with trueVals := some ts, obsVals := some os, params := p2, isSampled := true, prob := pr } := by
  subst hi
  obtain ⟨samplers, selectors, rng, trace⟩ := h
  simp only at *
  -- what the selector is given before
  let c0 := selectors (samplers i).selector
  let c2 : Selector F G := { c0 with data := { c0.data with
      distance := if (samplers i).usesDistance then some v.distance else c0.data.distance
      luminosity := some ls } }
  let h2 : Heap F G := { samplers, selectors := fun q => if q = (samplers i).selector then c2 else selectors q, rng, trace }
  have k1 : giveSelector i { samplers, selectors, rng, trace } = .ok () h2 := by
    cases hd : (samplers i).usesDistance <;>
    · simp only [giveSelector, giveDistance, giveLuminosity, bind_apply, hd, hsp, hl, if_true, Heap.modSelector,
        Bool.false_eq_true, if_false, h2, c2, c0]
      congr 2
      funext q
      by_cases hq : q = (samplers i).selector <;> simp [hq]
  have hv : h2.view i = Heap.view { samplers, selectors, rng, trace } i := rfl
  let h3 : Heap F G := { h2 with trace := trace ++ [(i, h2.view i)] }
  let h4 : Heap F G := { h3.modSampler i (fun s => { s with trueVals := some ts, params := p1 }) with rng := g1 }
  have k2 : runCode (w.code i).trueSampler i n h3 = .ok () h4 := by
    have hv3 : h3.view i = Heap.view { samplers, selectors, rng, trace } i := rfl
    unfold runCode
    rw [hv3]
    simp only [show h3.rng = rng from rfl, ht]
    simp only [h4]
    congr 2
    simp only [Heap.modSampler]
    congr 1
    funext j
    by_cases hj : j = i
    · subst hj; simp; rfl
    · simp [hj]
  let h5 : Heap F G := { h4.modSampler i (fun s => { s with trueVals := some ts, obsVals := some os, params := p2 }) with rng := g2 }
  have k3 : observe w i n h4 = .ok () h5 := by
    have ho4 : (h4.samplers i).isObserved = (samplers i).isObserved := by simp [h4, h3, h2, Heap.modSampler]
    have hv4 : h4.view i = { Heap.view { samplers, selectors, rng, trace } i with trueVals := some ts, params := p1 } := by
      simp [Heap.view, h4, h3, h2, Heap.modSampler, hsec]
    unfold observe
    rw [ho4]
    cases hb : (samplers i).isObserved with
    | true =>
      rw [hb] at ho
      simp only [if_true] at ho ⊢
      unfold runCode
      rw [hv4]
      simp only [show h4.rng = g1 from rfl, ho]
      rfl
    | false =>
      rw [hb] at ho
      simp only [Bool.false_eq_true, if_false] at ho ⊢
      obtain ⟨rfl, rfl, rfl⟩ := ho
      simp only [h5, Heap.modSampler]
      congr 2
      funext j
      by_cases hj : j = i
      · subst hj; simp [h4, Heap.modSampler]
      · simp [hj]
  have q5 : (h5.samplers i).selector = (samplers i).selector := by simp [h5, h4, h3, h2, Heap.modSampler]
  have o5 : (h5.samplers i).obsVals = some os := by simp [h5, Heap.modSampler]
  have t5 : (h5.samplers i).trueVals = some ts := by simp [h5, Heap.modSampler]
  let h6 : Heap F G := h5.modSelector (samplers i).selector fun c => { c with data := { c.data with obsValue := some os } }
  let h7 : Heap F G := h6.modSampler i fun s => { s with isSampled := true }
  let h8 : Heap F G := { h7.modSelector (samplers i).selector (fun _ => sel') with rng := g3 }
  have k4 : drawSelector w (samplers i).selector n h7 = .ok () h8 := by
    have e1 : h7.selectors (samplers i).selector = givenTo c0 (samplers i).usesDistance v.distance ls os := by
      simp [h7, h6, h5, h4, h3, h2, Heap.modSampler, Heap.modSelector, c2, givenTo]
    unfold drawSelector withSelector
    rw [e1, show h7.rng = g2 from rfl, hsel]
  have v8 : h8.view i = { Heap.view { samplers, selectors, rng, trace } i with trueVals := some ts, obsVals := some os, params := p2 } := by
    simp [Heap.view, h8, h7, h6, h5, h4, h3, h2, Heap.modSampler, Heap.modSelector, hsec]
  let h9 : Heap F G := h8.modSampler i fun s => { s with prob := pr }
  have k5 : finishDraw w i n h2 = .ok () h9 := by
    unfold finishDraw
    have m1 : (modify fun h : Heap F G => { h with trace := h.trace ++ [(i, h.view i)] } : Py (Heap F G) Unit) h2 = .ok () h3 := rfl
    have m2 : (modify fun h : Heap F G => h.modSelector (h.samplers i).selector fun c =>
        { c with data := { c.data with obsValue := (h.samplers i).obsVals } } : Py (Heap F G) Unit) h5 = .ok () h6 := by
      rw [modify_apply, q5, o5]
    have g6 : (get : Py (Heap F G) (Heap F G)) h6 = .ok h6 h6 := rfl
    have a1 : (pyAssert (lenIs (h6.samplers i).trueVals n) : Py (Heap F G) Unit) h6 = .ok () h6 := by
      rw [show (h6.samplers i).trueVals = some ts from t5]
      simp [lenIs, lt, pyAssert]
    have a2 : (pyAssert (lenIs (h6.samplers i).obsVals n) : Py (Heap F G) Unit) h6 = .ok () h6 := by
      rw [show (h6.samplers i).obsVals = some os from o5]
      simp [lenIs, lo, pyAssert]
    have m3 : (modify fun h : Heap F G => h.modSampler i fun s => { s with isSampled := true } : Py (Heap F G) Unit) h6 = .ok () h7 := rfl
    have q6 : (h6.samplers i).selector = (samplers i).selector := q5
    have g8 : (get : Py (Heap F G) (Heap F G)) h8 = .ok h8 h8 := rfl
    have m4 : (liftE ((w.code i).prob (h8.view i)) : Py (Heap F G) _) h8 = .ok pr h8 := by
      rw [v8, hp]; rfl
    rw [bind_of_ok m1, bind_of_ok k2, bind_of_ok k3, bind_of_ok m2, bind_of_ok g6, bind_of_ok a1, bind_of_ok a2,
      bind_of_ok m3, q6, bind_of_ok k4, bind_of_ok g8, bind_of_ok m4]
    rfl
  refine ⟨h9, ?_, rfl, ?_, ?_, ?_, ?_⟩
  · rw [samplerDraw]
    simp only [bind_apply, get_apply, hs, Bool.false_eq_true, if_false, k1, hsec]
    exact k5
  · intro j hj
    simp [h9, h8, h7, h6, h5, h4, h3, h2, Heap.modSampler, Heap.modSelector, hj]
  · intro q hq
    simp [h9, h8, h7, h6, h5, h4, h3, h2, Heap.modSampler, Heap.modSelector, hq]
  · simp [h9, h8, Heap.modSampler, Heap.modSelector]
  · simp [h9, h8, h7, h6, h5, h4, h3, h2, Heap.modSampler, Heap.modSelector]

end Popsynth
