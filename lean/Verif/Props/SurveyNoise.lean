import Verif.Props.Survey
import Mathlib.Analysis.SpecialFunctions.Pow.Real

/-!
# C22 (flux noise), C23 (probabilities), C26 (known distances)
-/

set_option autoImplicit false
set_option linter.unusedSectionVars false

namespace Popsynth
open Spec
variable {F G : Type} [LE F] [DecidableLE F] [OfNat F 0] [OfNat F 1]

/-! ### C22 -/

/-- `xs` are successive results of the random primitive `one`, starting in state `g`
and ending in `g'`. -/
inductive Spec.Draws {F G : Type} (one : G → F × G) : G → List F → G → Prop where
  | nil (g : G) : Draws one g [] g
  | cons {g g1 g2 : G} {x : F} {xs : List F} : one g = (x, g1) → Draws one g1 xs g2 →
      Draws one g (x :: xs) g2

omit [LE F] [DecidableLE F] [OfNat F 0] [OfNat F 1] in
theorem normalMany_draws (e : SurveyEnv F G) (sigma : F) (n : Nat) (g : G) :
    Draws (e.normal sigma) g (normalMany e sigma n g).1 (normalMany e sigma n g).2 ∧
    (normalMany e sigma n g).1.length = n := by
  induction n generalizing g with
  | zero => exact ⟨.nil g, rfl⟩
  | succ n ih =>
    obtain ⟨h1, h2⟩ := ih (e.normal sigma g).2
    exact ⟨.cons rfl h1, by simp only [normalMany, List.length_cons, h2]⟩

/-- The class of a selector does not change during the drawing of the samplers. -/
theorem SurveyEff.kind {e : SurveyEnv F G} {y : Synth F} {a : SurveyArgs F} {s s' : SurvSt F G}
    {P : Population F} {r : SurveyRun e y a s P s'} {T : List (Nat × SView F)}
    (ef : SurveyEff e y a s P s' r T) (q : Nat) :
    (r.all.s5.heap.selectors q).kind = (s.heap.selectors q).kind := by
  have h := ef.eff.selStat q
  have h6 : r.all.s6.heap.selectors = r.all.s5.heap.selectors := by rw [r.all.heap6]
  simp only [Selector.flags, Prod.mk.injEq] at h
  rw [← h.1, h6]

/-- **C22 (noise, partial).** If a flux uncertainty is given and the flux selection is
not a `UnitySelection`, each observed flux is the latent flux moved in log10 (or ln)
space by its own normal number with that uncertainty, which is recorded.  *Missing*: a
flux selection of class `UnitySelection` counts as not set, see
`C22_violated_unity`. -/
theorem C22_noise_partial (e : SurveyEnv F G) (y : Synth F) (a : SurveyArgs F)
    (s s' : SurvSt F G) (P : Population F) (hk : drawSurvey e y a s = .ok P s')
    (hw : WellFormed y.roots s.heap) (hd : DownClosed s.heap.children s.heap.sampled)
    (sigma : F) (hs : a.fluxSigma = some sigma)
    (hu : (s.heap.selectors y.fluxSel).kind.isUnity = false) :
    P.fluxSigma = sigma ∧ ∃ (g : G) (xs : List F) (g' : G), Draws (e.normal sigma) g xs g' ∧
      xs.length = P.fluxes.latent.length ∧ P.fluxes.obs.length = P.fluxes.latent.length ∧
      ∀ (i : Nat) (f x : F), P.fluxes.latent[i]? = some f → xs[i]? = some x → P.fluxes.obs[i]? = some
        (if a.log10Draw then e.pow10 (e.add (e.log10 f) x) else e.exp (e.add (e.ln f) x)) := by
  obtain ⟨r⟩ := drawSurvey_ok hk
  obtain ⟨T, ef⟩ := surveyEff r hw hd
  have pk := mkPopulation_ok r.build.built
  have hn : r.d.fluxes.length = r.d.n := pk.lenFluxes.trans r.gm_length
  have hn' : r.d.fluxObs.length = r.d.n := pk.lenFluxObs.trans r.gm_length
  have hfs : P.fluxSigma = r.d.sigma := pk.rest.2.2.2.2.1
  have hfl : P.fluxes.latent = r.d.fluxes ∧ P.fluxes.obs = r.d.fluxObs := by
    rw [pk.fluxes]; exact ⟨rfl, rfl⟩
  rcases observeFlux_ok r.all.observed with ⟨sg, -, h2, h3, ⟨-, -, l, h5, -, h7⟩, -⟩ | ⟨h1, -⟩
  · rw [hs] at h2
    obtain rfl : sigma = sg := Option.some.inj h2
    obtain ⟨d1, d2⟩ := normalMany_draws e sigma r.d.n r.all.s5.heap.rng
    refine ⟨hfs.trans h3, _, _, _, d1, by rw [hfl.1, d2, hn], by rw [hfl.1, hfl.2, hn, hn'], ?_⟩
    intro i f x hf hx
    rw [hfl.1] at hf
    rw [hfl.2, h7]
    unfold bcast at h5
    rw [if_pos (by rw [List.length_map, hn, d2])] at h5
    cases h5
    rw [List.getElem?_map, List.getElem?_zipWith, List.getElem?_map, hf, hx]
    cases a.log10Draw <;> rfl
  · rw [ef.kind] at h1
    rcases h1 with h1 | h1
    · rw [hu] at h1; cases h1
    · rw [hs] at h1; cases h1

/-- **C22 (no noise).** Without flux uncertainty the observed fluxes are the latent ones,
and the dummy -1 is recorded. -/
theorem C22_no_sigma (e : SurveyEnv F G) (y : Synth F) (a : SurveyArgs F)
    (s s' : SurvSt F G) (P : Population F) (hk : drawSurvey e y a s = .ok P s')
    (hs : a.fluxSigma = none) :
    P.fluxes.obs = P.fluxes.latent ∧ P.fluxSigma = e.minusOne := by
  obtain ⟨r⟩ := drawSurvey_ok hk
  have pk := mkPopulation_ok r.build.built
  have hfs : P.fluxSigma = r.d.sigma := pk.rest.2.2.2.2.1
  rcases observeFlux_ok r.all.observed with ⟨sg, -, h2, -⟩ | ⟨-, h2, h3, -⟩
  · rw [hs] at h2; cases h2
  · refine ⟨?_, hfs.trans h3⟩
    rw [pk.fluxes]; exact h2

/-- **C22 is violated** for every survey whose flux selection is a `UnitySelection`, even
one set with `set_flux_selection`: the flux uncertainty asked for is dropped. -/
theorem C22_violated_unity (e : SurveyEnv F G) (y : Synth F) (a : SurveyArgs F)
    (s s' : SurvSt F G) (P : Population F) (hk : drawSurvey e y a s = .ok P s')
    (hw : WellFormed y.roots s.heap) (hd : DownClosed s.heap.children s.heap.sampled)
    (hu : (s.heap.selectors y.fluxSel).kind.isUnity = true) :
    P.fluxes.obs = P.fluxes.latent ∧ P.fluxSigma = e.minusOne := by
  obtain ⟨r⟩ := drawSurvey_ok hk
  obtain ⟨T, ef⟩ := surveyEff r hw hd
  have pk := mkPopulation_ok r.build.built
  have hfs : P.fluxSigma = r.d.sigma := pk.rest.2.2.2.2.1
  rcases observeFlux_ok r.all.observed with ⟨sg, h1, -⟩ | ⟨-, h2, h3, -⟩
  · rw [ef.kind, hu] at h1; cases h1
  · refine ⟨?_, hfs.trans h3⟩
    rw [pk.fluxes]; exact h2

omit [LE F] [DecidableLE F] [OfNat F 0] [OfNat F 1] in
/-- **C22 (lengths).** One normal number is added to each flux or nothing is returned: fluxes and
numbers of different lengths are only combined if one of them is a single one, and `ValueError`
is raised otherwise, after the numbers have been drawn. -/
theorem C22_lengths (e : SurveyEnv F G) (n : Nat) (sigma : F) (fwd bwd : F → F) (fluxes : List F)
    (s : SurvSt F G) (hv : e.validScale sigma = true) :
    (∀ l s', noisyFlux e n sigma fwd bwd fluxes s = .ok l s' →
      (fluxes.length = n ∨ fluxes.length = 1 ∨ n = 1) ∧
      l.length = if fluxes.length = 1 then n else fluxes.length) ∧
    (fluxes.length ≠ n → fluxes.length ≠ 1 → n ≠ 1 →
      outcome (noisyFlux e n sigma fwd bwd fluxes s) = .error .value) := by
  have hlen : ∀ g, (normalMany e sigma n g).1.length = n := fun g => (normalMany_draws e sigma n g).2
  have key : ∀ g, (∀ l, bcast e.add (fluxes.map fwd) (normalMany e sigma n g).1 = .ok l →
      (fluxes.length = n ∨ fluxes.length = 1 ∨ n = 1) ∧
      l.length = if fluxes.length = 1 then n else fluxes.length) ∧
      (fluxes.length ≠ n → fluxes.length ≠ 1 → n ≠ 1 →
        bcast e.add (fluxes.map fwd) (normalMany e sigma n g).1 = .error .value) := by
    intro g
    have hb := hlen g
    generalize (normalMany e sigma n g).1 = b at hb
    have ha : (fluxes.map fwd).length = fluxes.length := List.length_map _
    generalize fluxes.map fwd = a at ha
    rw [← ha, ← hb]
    clear ha hb
    unfold bcast
    split
    · rename_i h
      refine ⟨fun l hl => ?_, fun h' => absurd h h'⟩
      cases hl
      refine ⟨.inl h, ?_⟩
      rw [List.length_zipWith, h]
      split <;> simp
    · rename_i hne
      split
      · refine ⟨fun l hl => ?_, fun _ h' => absurd rfl h'⟩
        cases hl
        exact ⟨.inr (.inl rfl), by simp⟩
      · refine ⟨fun l hl => ?_, fun _ _ h' => absurd rfl h'⟩
        cases hl
        refine ⟨.inr (.inr rfl), ?_⟩
        rw [List.length_map]
        split
        · rename_i h; exact absurd h hne
        · rfl
      · exact ⟨fun l hl => (by cases hl), fun _ _ _ => rfl⟩
  obtain ⟨k1, k2⟩ := key s.heap.rng
  have e1 : noisyFlux e n sigma fwd bwd fluxes s =
      (do
        let l ← liftE (bcast e.add (fluxes.map fwd) (normalMany e sigma n s.heap.rng).1)
        pyAssert (l.all e.isFinite)
        pure (l.map bwd) : Py (SurvSt F G) (List F))
        { s with heap := { s.heap with rng := (normalMany e sigma n s.heap.rng).2 } } := by
    unfold noisyFlux
    simp only [hv]
    rfl
  rw [e1]
  refine ⟨fun l s' h => ?_, fun h1 h2 h3 => ?_⟩
  · cases hb : bcast e.add (fluxes.map fwd) (normalMany e sigma n s.heap.rng).1 with
    | error x => rw [hb] at h; cases h
    | ok l' =>
      obtain ⟨k3, k4⟩ := k1 l' hb
      rw [hb] at h
      obtain ⟨u, t, h4, h5⟩ := (bind_ok_iff _ _ _ _ _).1 h
      cases h4
      obtain ⟨u, t, h6, h7⟩ := (bind_ok_iff _ _ _ _ _).1 h5
      cases h7
      exact ⟨k3, by rw [List.length_map, k4]⟩
  · rw [k2 h1 h2 h3]
    rfl

/-- Two fluxes and three numbers do not fit; a single flux is combined with all three. -/
example :
    outcome (noisyFlux SurveyExample.env 3 1 SurveyExample.env.log10 SurveyExample.env.pow10 [2, 6]
      SurveyExample.st) = .error .value ∧
    outcome (noisyFlux SurveyExample.env 3 1 SurveyExample.env.log10 SurveyExample.env.pow10 [2]
      SurveyExample.st) = .ok [3, 4, 2] := by decide +kernel

/-- With `flux_sigma` the example's fluxes 2, 6, 12 are scattered; with a unity flux
selection that was set explicitly they are not. -/
example : (okVal (drawSurvey SurveyExample.env SurveyExample.synth { fluxSigma := some 1 }
      SurveyExample.st)).map (fun P => (P.fluxes.latent, P.fluxes.obs, P.fluxSigma)) =
      some ([2, 6, 12], [3, 8, 12], 1) ∧
    (okVal (drawSurvey SurveyExample.env { SurveyExample.synth with fluxSel := 12, fluxSelSet := true }
      { fluxSigma := some 1 } SurveyExample.st)).map
        (fun P => (P.fluxes.latent, P.fluxes.obs, P.fluxSigma)) =
      some ([2, 6, 12], [2, 6, 12], 999) := by decide +kernel

omit [LE F] [DecidableLE F] [OfNat F 0] [OfNat F 1] in
/-- **C22 (positivity).** Over the reals, observed fluxes are positive whenever latent
fluxes are. -/
theorem C22_positive [DecidableLE ℝ] (e : SurveyEnv ℝ G) (y : Synth ℝ) (a : SurveyArgs ℝ)
    (s s' : SurvSt ℝ G) (P : Population ℝ) (hk : drawSurvey e y a s = .ok P s')
    (h10 : ∀ x, e.pow10 x = (10 : ℝ) ^ x) (hexp : ∀ x, e.exp x = Real.exp x)
    (hpos : ∀ f ∈ P.fluxes.latent, 0 < f) : ∀ f ∈ P.fluxes.obs, 0 < f := by
  obtain ⟨r⟩ := drawSurvey_ok hk
  have pk := mkPopulation_ok r.build.built
  rw [pk.fluxes] at hpos ⊢
  rcases observeFlux_ok r.all.observed with ⟨sg, -, -, -, ⟨-, -, l, -, -, h7⟩, -⟩ | ⟨-, h2, -⟩
  · intro f hf
    simp only [popArgs] at hf
    rw [h7] at hf
    obtain ⟨x, -, rfl⟩ := List.mem_map.1 hf
    cases a.log10Draw
    · simp only [Bool.false_eq_true, if_false, hexp]; exact Real.exp_pos _
    · simp only [if_true, h10]; positivity
  · intro f hf
    exact hpos f (by simp only [popArgs] at hf ⊢; rw [h2] at hf; exact hf)

/-! ### C23 -/

/-- `x` is entry `i` of the array, where an array of length one counts for all entries
(numpy broadcasting). -/
def Spec.EntryOf {F : Type} (l : List F) (i : Nat) (x : F) : Prop :=
  (l.length = 1 ∧ l[0]? = some x) ∨ (l.length ≠ 1 ∧ l[i]? = some x)

omit [LE F] [DecidableLE F] [OfNat F 0] [OfNat F 1] in
theorem entryOf_bget {l : List F} {i : Nat} {x : F} (h : bget l i = some x) : EntryOf l i x := by
  unfold bget at h
  split at h
  · rename_i h1; exact .inl ⟨h1, h⟩
  · rename_i h1; exact .inr ⟨h1, h⟩

omit [LE F] [DecidableLE F] [OfNat F 0] [OfNat F 1] in
theorem entries_of_map {α : Type} (g : α → List F) (i : Nat) : ∀ (xs : List α) (fs : List F),
    xs.map (fun x => bget (g x) i) = fs.map some →
    List.Forall₂ (fun x f => EntryOf (g x) i f) xs fs
  | [], [], _ => .nil
  | [], _ :: _, h => by simp at h
  | _ :: _, [], h => by simp at h
  | x :: xs, f :: fs, h => by
    simp only [List.map_cons, List.cons.injEq] at h
    exact .cons (entryOf_bget h.1) (entries_of_map g i xs fs h.2)

/-- Storage entries correspond to samplers. -/
theorem reports_ids {h : Heap F G} {S : Nat → Prop} {st : Storage F} (hr : Reports h S st) :
    ∃ ids : List Nat, ids.Nodup ∧ (∀ j, j ∈ ids → S j) ∧
      st.map Prod.snd = ids.map (report h) ∧
      (∀ j, S j → ∃ k ∈ ids, (h.samplers k).name = (h.samplers j).name) := by
  have key : ∀ (l : List (String × SecC F)), (∀ x ∈ l, x ∈ st) → (l.map Prod.fst).Nodup →
      ∃ ids : List Nat, (∀ j ∈ ids, S j) ∧ l.map Prod.snd = ids.map (report h) ∧
        ids.map (fun j => (h.samplers j).name) = l.map Prod.fst := by
    intro l
    induction l with
    | nil => intro _ _; exact ⟨[], by simp, rfl, rfl⟩
    | cons x l ih =>
      intro hm hn
      rw [List.map_cons, List.nodup_cons] at hn
      obtain ⟨ids, i1, i2, i3⟩ := ih (fun z hz => hm z (List.mem_cons_of_mem _ hz)) hn.2
      have hx : Dict.get? st x.1 = some x.2 := Dict.get?_of_mem hr.nodup (hm x (by simp))
      obtain ⟨j, hj, hnm, hc⟩ := (hr.iff _ _).1 hx
      refine ⟨j :: ids, ?_, by rw [List.map_cons, List.map_cons, i2, hc],
        by rw [List.map_cons, List.map_cons, i3, hnm]⟩
      intro k hk
      rcases List.mem_cons.1 hk with rfl | hk
      · exact hj
      · exact i1 k hk
  obtain ⟨ids, i1, i2, i3⟩ := key st (fun _ => id) hr.nodup
  refine ⟨ids, ?_, i1, i2, ?_⟩
  · have : (ids.map (fun j => (h.samplers j).name)).Nodup := by rw [i3]; exact hr.nodup
    exact List.Nodup.of_map _ this
  · intro j hj
    have hg := (hr.iff (h.samplers j).name (report h j)).2 ⟨j, hj, rfl, rfl⟩
    have hm : (h.samplers j).name ∈ st.map Prod.fst := by
      have := Dict.mem_of_get? hg
      exact List.mem_map.2 ⟨_, this, rfl⟩
    rw [← i3] at hm
    obtain ⟨k, hk, hk'⟩ := List.mem_map.1 hm
    exact ⟨k, hk, hk'⟩

/-- Selecting does not change the class of any selector. -/
theorem SelectRun.kinds {e : SurveyEnv F G} {q n : Nat} {s s' : SurvSt F G}
    (r : SelectRun e q n s s') (x : Nat) :
    (s'.heap.selectors x).kind = (s.heap.selectors x).kind := by
  by_cases hx : x = q
  · subst hx
    cases hs : (s.heap.selectors x).isSampled with
    | true => rw [r.kept hs]
    | false =>
      obtain ⟨t, h1, h2⟩ := r.drawn hs
      have := selDraw_keeps e.world.sel e.world.half e.world.ninety e.world.showProgress n
        { sel := s.heap.selectors x, rng := s.heap.rng }
      rw [h1] at this
      rw [h2]; exact this.1
  · rw [r.others x hx]

/-- **C23 (partial).** The probability of object `i` is the product, in this order, of
one, the spatial probability, the luminosity probability (when there is no derived
luminosity) and the probabilities reported by the samplers whose selection is not a
`UnitySelection`.  The assumption on `draw_sky_positions` holds for all built-in
distributions.  *Missing*: samplers with a `UnitySelection` are left out, see
`C23_violated_unity`. -/
theorem C23_product_partial (e : SurveyEnv F G) (y : Synth F) (a : SurveyArgs F)
    (s s' : SurvSt F G) (P : Population F) (hk : drawSurvey e y a s = .ok P s')
    (hw : WellFormed y.roots s.heap) (hd : DownClosed s.heap.children s.heap.sampled)
    (hsky : ∀ n x u t, e.spatial.drawSky n x = .ok u t → t.sp.probability = x.sp.probability) :
    ∃ ids : List Nat, ids.Nodup ∧
      (∀ j, j ∈ ids ↔ ReachFrom s.heap y.roots j ∧
        (s.heap.selectors (s.heap.samplers j).selector).kind.isUnity = false) ∧
      ∃ pv, P.probability = some pv ∧ pv.obs.length = P.selection.length ∧
        ∀ (i : Nat) (p : F), pv.obs[i]? = some p → ∃ (ps : List F) (x : F) (fs : List F),
          s'.sp.probability = some ps ∧ EntryOf ps i x ∧
          List.Forall₂ (fun j f => EntryOf (s'.heap.samplers j).probability i f) ids fs ∧
          (y.derived.isSome = true → p = fs.foldl e.mul (e.mul 1 x)) ∧
          (y.derived = none → ∃ pl l, s'.lum.probability = some pl ∧ EntryOf pl i l ∧
            p = fs.foldl e.mul (e.mul (e.mul 1 x) l)) := by
  obtain ⟨r⟩ := drawSurvey_ok hk
  obtain ⟨T, ef⟩ := surveyEff r hw hd
  have pk := mkPopulation_ok r.build.built
  obtain ⟨q⟩ := applySelections_ok r.all.selected
  have hkind : ∀ x, (q.s2.heap.selectors x).kind = (s.heap.selectors x).kind := by
    intro x
    rw [(selectOn_ok q.fluxd).kinds x]
    have h := ef.eff.selStat x
    simp only [Selector.flags, Prod.mk.injEq] at h
    rw [← h.1]
    simp only [Heap.modSelector]
    split <;> rfl
  obtain ⟨-, f1, -, f2⟩ := applyAux_fold q.auxed
  simp only at f1 f2
  obtain ⟨all, n1, n2, n3, n4⟩ := reports_ids ef.reports
  have hname : ∀ j, (r.all.s6.heap.samplers j).name = (s.heap.samplers j).name :=
    fun j => ident_name (ef.eff.ident j)
  have hall : ∀ j, j ∈ all ↔ ReachFrom s.heap y.roots j := by
    refine fun j => ⟨n2 j, fun hj => ?_⟩
    obtain ⟨k, hk1, hk2⟩ := n4 j hj
    rw [hname, hname] at hk2
    obtain ⟨a1, ha1, hr1⟩ := hj
    obtain ⟨a2, ha2, hr2⟩ := n2 k hk1
    rw [hw.inj a1 ha1 a2 ha2 j k hr1 hr2 hk2.symm]; exact hk1
  have hsel : ∀ j, (r.all.s6.heap.samplers j).selector = (s.heap.samplers j).selector :=
    fun j => ident_selector (ef.eff.ident j)
  let keep : Nat → Bool := fun j => !(s.heap.selectors (s.heap.samplers j).selector).kind.isUnity
  have hfil : ((r.d.loc.auxq.filter fun kv => !(q.s2.heap.selectors kv.2.selection).kind.isUnity).map
      Prod.snd) = (all.filter keep).map (report r.all.s6.heap) := by
    have h1 : ((r.d.loc.auxq.filter fun kv => !(q.s2.heap.selectors kv.2.selection).kind.isUnity).map
        Prod.snd) = (r.d.loc.auxq.map Prod.snd).filter
          (fun c => !(s.heap.selectors c.selection).kind.isUnity) := by
      rw [List.filter_map]
      congr 1
      apply List.filter_congr
      intro x _
      simp only [Function.comp, hkind]
    rw [h1, n3, List.filter_map]
    congr 1
    apply List.filter_congr
    intro x _
    simp only [Function.comp, report, hsel, keep]
  refine ⟨all.filter keep, n1.filter _, ?_, _, pk.probability, ?_, ?_⟩
  · intro j
    rw [List.mem_filter, hall]
    simp only [keep, Bool.not_eq_true']
  · rw [pk.rest.2.2.2.1]
    exact pk.lenProb _ rfl
  · intro i p hp
    have hi : i < r.d.n := by
      have := (List.getElem?_eq_some_iff.1 hp).1
      rw [← r.all.prob_length]; exact this
    obtain ⟨pr⟩ := drawPositions_ok r.all.placed
    obtain ⟨x0, x, b1, b2, b3⟩ := inPlace_get pr.hprob (i := i) (by simpa using hi)
    have hx0 : x0 = 1 := by
      rw [List.getElem?_replicate] at b1
      simp only [hi, if_true, Option.some.injEq] at b1; exact b1.symm
    subst hx0
    have hsp3 : r.all.s3.sp.probability = some pr.pr := by
      have := hsky _ _ _ _ (onSpatial_ok pr.sky).1
      rw [← pr.hpr]; exact this
    -- probability after the luminosities
    have hloc : r.d.loc.prob = r.all.loc1.prob := auxFold_prob _ _ _ _ _ r.all.auxd
    have hsp5 : r.all.s5.sp = r.all.s4.sp ∧ r.all.s5.lum = r.all.s4.lum := by
      refine foldPy_ok_induct (P := fun _ t => t.sp = r.all.s4.sp ∧ t.lum = r.all.s4.lum)
        ⟨rfl, rfl⟩ ?_ r.all.auxd
      intro kv _ l1 t1 l2 t2 h1 h2
      obtain ⟨ar⟩ := auxStep_ok h2
      exact ⟨(congrArg (·.sp) ar.frame).trans h1.1, (congrArg (·.lum) ar.frame).trans h1.2⟩
    have hsp6 : r.all.s6.sp = r.all.s5.sp ∧ r.all.s6.lum = r.all.s5.lum := by
      have := observeFlux_rng r.all.observed
      exact ⟨congrArg (·.sp) this, congrArg (·.lum) this⟩
    have hsp' : s'.sp.probability = r.s7.sp.probability := by
      have h1 : s'.sp = r.build.s9.sp := congrArg (·.sp) (onGraph_ok r.build.graphed).2
      have h2 := (onSpatial_ok r.build.rmax).1
      have h3 := (selectOn_ok r.build.distd).rest.1
      rw [h1, ← h3]
      unfold onParams at h2
      simp only at h2
      cases hrm : e.spatial.readRMax r.build.s8.sp.params with
      | error _ _ => rw [hrm] at h2; cases h2
      | ok v o =>
        rw [hrm] at h2
        simp only [EStateM.Result.ok.injEq, SpSt.mk.injEq] at h2
        rw [← h2.2.1]
    have hlum' : s'.lum = r.all.s4.lum := by
      rw [r.build.frame.2.2.2.2, r.all.frame7.2.2.2.2.1, hsp6.2, hsp5.2]
    have hspF : s'.sp.probability = r.all.s4.sp.probability := by
      rw [hsp', r.all.frame7.2.2.2.1, hsp6.1, hsp5.1]
    have fin : ∀ p1, r.d.loc.prob[i]? = some p1 → ∃ fs : List F,
        List.Forall₂ (fun j f => EntryOf (s'.heap.samplers j).probability i f)
          (all.filter keep) fs ∧ p = fs.foldl e.mul p1 := by
      intro p1 hp1
      obtain ⟨fs, g1, g2⟩ := f2 i p1 hp1
      refine ⟨fs, ?_, ?_⟩
      · have h1 : (all.filter keep).map (fun j => bget (s'.heap.samplers j).probability i) =
            fs.map some := by
          rw [← g1]
          have : ∀ (l : List (String × SecC F)) (m : List Nat),
              l.map Prod.snd = m.map (report r.all.s6.heap) →
              m.map (fun j => bget (s'.heap.samplers j).probability i) =
                l.map (fun kv => bget kv.2.prob i) := by
            intro l m hlm
            have h2 := congrArg (List.map fun c : SecC F => bget c.prob i) hlm
            rw [List.map_map, List.map_map] at h2
            have h3 : l.map (fun kv => bget kv.2.prob i) =
                m.map ((fun c : SecC F => bget c.prob i) ∘ report r.all.s6.heap) := h2
            rw [h3]
            apply List.map_congr_left
            intro j _
            simp only [Function.comp, report, r.samplers.1]
          exact this _ _ hfil
        exact entries_of_map (fun j => (s'.heap.samplers j).probability) i _ _ h1
      · have : r.d.prob[i]? = some p := hp
        rw [this] at g2
        exact Option.some.inj g2
    rcases drawLuminosities_ok r.all.lumd with ⟨d, hd', ⟨dr⟩⟩ | ⟨nm, hd', hl', ⟨dr⟩⟩
    · have hl1 : r.d.loc.prob[i]? = some (e.mul 1 x) := by
        rw [hloc, dr.loc_eq]; exact b3
      obtain ⟨fs, k1, k2⟩ := fin _ hl1
      have hs4 : r.all.s4.sp = r.all.s3.sp := congrArg (·.sp) dr.frame
      refine ⟨pr.pr, x, fs, by rw [hspF, hs4, hsp3], entryOf_bget b2, k1, fun _ => k2, ?_⟩
      intro h; rw [hd'] at h; cases h
    · obtain ⟨x1, l, c1, c2, c3⟩ := inPlace_get dr.hprob (i := i) (by
        simp only; rw [inPlace_length pr.hprob, List.length_replicate]; exact hi)
      simp only at c1
      rw [b3] at c1
      obtain rfl := Option.some.inj c1
      have hl1 : r.d.loc.prob[i]? = some (e.mul (e.mul 1 x) l) := by
        rw [hloc, dr.loc_eq]; exact c3
      obtain ⟨fs, k1, k2⟩ := fin _ hl1
      have hs4 : r.all.s4.sp = r.all.s3.sp :=
        (congrArg (·.sp) (onLum_ok dr.probd).2).trans (congrArg (·.sp) (onLum_ok dr.drawn).2)
      refine ⟨pr.pr, x, fs, by rw [hspF, hs4, hsp3], entryOf_bget b2, k1, ?_, fun _ =>
        ⟨dr.pr, l, by rw [hlum']; exact dr.hpr, entryOf_bget c2, k2⟩⟩
      intro h; rw [hd'] at h; cases h

/-- The example's `draw_sky_positions` keeps the probability, and the objects have
probability 1·1·2 (sampler `"c"` reports ones). -/
example : (∀ n x u t, SurveyExample.env.spatial.drawSky n x = .ok u t →
      t.sp.probability = x.sp.probability) ∧
    (okVal (drawSurvey SurveyExample.env SurveyExample.synth SurveyExample.args
      SurveyExample.st)).map (fun P => P.probability.map (·.obs)) = some (some [2, 2, 2]) := by
  refine ⟨?_, by decide +kernel⟩
  intro n x u t h
  cases h; rfl

/-- **C23 is violated**: the probability 3 reported by a sampler whose selection is the
default `UnitySelection` is not part of the population's probability 2. -/
theorem C23_violated_unity :
    ∃ (e : SurveyEnv Nat Nat) (y : Synth Nat) (a : SurveyArgs Nat) (s s' : SurvSt Nat Nat)
      (P : Population Nat) (v : SimVar Nat),
      drawSurvey e y a s = .ok P s' ∧ WellFormed y.roots s.heap ∧ y.aux = [("a", 0)] ∧
      e.mul 2 3 = 6 ∧
      s'.sp.probability = some [1, 1, 1] ∧ s'.lum.probability = some [2, 2, 2] ∧
      (s'.heap.samplers 0).probability = [3, 3, 3] ∧
      P.probability = some v ∧ v.obs = [2, 2, 2] := by
  let code : Nat → SamplerCode Nat Nat := fun j =>
    { SamplerExample.code with prob := fun v => .ok (v.trueVals.map fun t => t.map fun _ => 3) }
  let e : SurveyEnv Nat Nat :=
    { SurveyExample.env with world := { SamplerExample.w with code := code } }
  let s : SurvSt Nat Nat :=
    { heap :=
        { samplers := fun _ => { name := "a", obsName := "" }
          selectors := fun _ => { kind := .unity }
          rng := 0 }
      sp := {}, lum := {}, graph := {} }
  let y := SurveyExample.synth
  obtain ⟨P, hP⟩ : ∃ P, drawSurvey e y {} s = .ok P (endState (drawSurvey e y {} s)) :=
    exists_ok_of_isOk (by decide +kernel)
  have hv : (okVal (drawSurvey e y {} s)).map (fun P => P.probability.map (·.obs)) =
      some (some [2, 2, 2]) := by decide +kernel
  rw [(okVal_ok hP).1] at hv
  simp only [Option.map_some, Option.some.injEq] at hv
  cases hg : P.probability with
  | none => rw [hg] at hv; cases hv
  | some v =>
    rw [hg] at hv
    simp only [Option.map_some, Option.some.injEq] at hv
    exact ⟨e, y, {}, s, _, P, v, hP, (SurveyExample.wellFormed_flat y.roots s.heap (fun _ => rfl)
      (by decide) (by decide)).1, rfl, rfl, by decide +kernel, by decide +kernel,
      by decide +kernel, hg, hv⟩

/-! ### C26 -/

/-- **C26 is violated, in general**: no returned population has detections without a
known distance, because the log message of line 1389 takes the maximum of an empty
array. -/
theorem C26_violated_no_known (e : SurveyEnv F G) (y : Synth F) (a : SurveyArgs F)
    (s s' : SurvSt F G) (P : Population F) (hk : drawSurvey e y a s = .ok P s')
    (hdet : 0 < P.nDetections) : P.knownDistances ≠ [] := by
  obtain ⟨r⟩ := drawSurvey_ok hk
  have pk := mkPopulation_ok r.build.built
  have h1 := r.build.logged
  unfold logFarthest at h1
  rw [r.build.gmask] at h1
  intro hn
  rw [pk.rest.1] at hn
  rw [pk.counts.2.1] at hdet
  have : countTrue r.build.gm > 0 ∧ r.build.known = [] := ⟨hdet, hn⟩
  simp only [pure_bind, bind, Except.bind] at h1
  rw [if_pos this] at h1
  cases h1

/-- The same survey with a distance selection that selects nothing: `ValueError`. -/
theorem C26_violated_example :
    ∃ (e : SurveyEnv Nat Nat) (y : Synth Nat) (a : SurveyArgs Nat) (s : SurvSt Nat Nat),
      (∀ d n g, match (s.heap.selectors y.distSel).kind with
        | .custom f => f d n g = (.ok (List.replicate n false), g)
        | _ => False) ∧
      outcome (drawSurvey e y a s) = .error .value ∧
      isOk (drawSurvey e { y with distSel := 12 } a s) = true := by
  refine ⟨SurveyExample.env, SurveyExample.synth, {},
    { SurveyExample.st with heap := { SurveyExample.heap with selectors := (fun q =>
      if q = 11 then { kind := .custom fun _ n g => (.ok (List.replicate n false), g) }
      else SurveyExample.heap.selectors q) } }, ?_, outcome_of_errVal (by decide +kernel), by decide +kernel⟩
  intro d n g; rfl

end Popsynth
