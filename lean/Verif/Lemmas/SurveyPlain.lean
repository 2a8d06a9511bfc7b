import Verif.Props.SurveyReturns

/-!
# Surveys put together from their stages
-/

set_option autoImplicit false
set_option linter.unusedSectionVars false

namespace Popsynth
open Spec

variable {F G : Type} [LE F] [DecidableLE F] [OfNat F 0] [OfNat F 1]
variable {e : SurveyEnv F G} {y : Synth F} {a : SurveyArgs F} {s : SurvSt F G}

theorem and_true_left (m : List Bool) :
    List.zipWith (· && ·) (List.replicate m.length true) m = m := by
  induction m with
  | nil => rfl
  | cons b m ih =>
    rw [List.length_cons, List.replicate_succ, List.zipWith_cons_cons, ih]
    simp

theorem add_of_masks {x z : Selector F G} {m m' : List Bool} (hx : x.selection = some m)
    (hz : z.selection = some m') (hl : m.length = m'.length) :
    ∃ r, x.add z = .ok r ∧ r.selection = some (List.zipWith (· && ·) m m') := by
  refine ⟨{ kind := .dummy, cls := "DummySelection", name := "dummy", selection := some (List.zipWith (· && ·) m m') }, ?_, rfl⟩
  simp only [Selector.add, Selector.mask, hx, hz]
  show (logicalAnd m m' >>= _) = _
  rw [logicalAnd_of_length hl]
  rfl

/-- The synth has a luminosity distribution and no spatial selector; its two selectors are
different objects that have not been used, and the one for distances selects everything. -/
structure Spec.Basic (e : SurveyEnv F G) (y : Synth F) (s : SurvSt F G) : Prop where
  derived : y.derived = none
  lum : y.lumName ≠ none
  spat : y.spatSel = none
  apart : y.distSel ≠ y.fluxSel
  fresh : (s.heap.selectors y.fluxSel).isSampled = false ∧
    (s.heap.selectors y.distSel).isSampled = false
  known : (s.heap.selectors y.distSel).kind = .unity
  spaces : ∀ q ∈ y.modelSpaces, q.2.length = y.nModel
  dict : ∀ t, ∃ d, e.toDict y t = .ok d

/-- What the attached samplers do: they give the quantities `auxq` and select with `am`. -/
structure AuxPlayed (e : SurveyEnv F G) (y : Synth F) (s : SurvSt F G) (n : Nat) (g4 g4' : G)
    (ls : List F) (v : Spatial F) (auxq : Storage F) (am : List Bool) : Prop where
  len : am.length = n
  good : GoodAux n [] auxq
  attached : ∀ k i, (k, i) ∈ y.aux → (s.heap.samplers i).isSecondary = false ∧
    (s.heap.samplers i).secondaries = [] ∧ 0 < e.frames
  run : ∀ (t : SurvSt F G) (loc : Loc F), t.heap = { s.heap with rng := g4 } → loc.auxq = [] →
    ∃ loc' h', foldPy y.aux loc (auxStep e n ls v) t = .ok loc' { t with heap := h' } ∧
      loc'.auxq = auxq ∧ loc'.prob = loc.prob ∧ h'.rng = g4' ∧
      h'.selectors y.fluxSel = s.heap.selectors y.fluxSel ∧
      h'.selectors y.distSel = s.heap.selectors y.distSel ∧
      (∀ i, (h'.samplers i).isSecondary = (s.heap.samplers i).isSecondary ∧
        (h'.samplers i).secondaries = (s.heap.samplers i).secondaries) ∧
      ∀ (t' : SurvSt F G) (prob : List F), prob.length = n →
        (∀ q, q ≠ y.fluxSel → t'.heap.selectors q = h'.selectors q) →
        ∃ sel prob', foldPy auxq ((drawnUnity "total auxiliary selection" n : Selector F G), prob)
          (applyAux e) t' = .ok (sel, prob') t' ∧ sel.selection = some am ∧ prob'.length = n

/-- What the stages of a survey do. -/
structure AuxStages (e : SurveyEnv F G) (y : Synth F) (a : SurveyArgs F) (s : SurvSt F G) (n : Nat)
    (g6 : G) (ds ts ps ls fx fo : List F) (auxq : Storage F) (am m : List Bool) where
  (g0 g1 g2 g3 g4 g4' g5 : G)
  (o1 : Obj F)
  (sp2 sp3 : Spat F)
  (lum1 : Lum F)
  (sg : F)
  (sel' : Selector F G)
  seed : e.seed y.seed s.heap.rng = .ok g0
  count : countObjects e a.nSamples a.normalize { s with heap := { s.heap with rng := g0 } } =
    .ok n { s with sp := { s.sp with params := o1 }, heap := { s.heap with rng := g1 } }
  dist : e.spatial.drawDistance n a.normalize { sp := { s.sp with params := o1 }, rng := g1 } =
    .ok () { sp := sp2, rng := g2 }
  prob : ∃ p, sp2.probability = some p ∧ p.length = n
  sky : e.spatial.drawSky n { sp := sp2, rng := g2 } = .ok () { sp := sp3, rng := g3 }
  pos : sp3.distances = some ds ∧ sp3.theta = some ts ∧ sp3.phi = some ps
  lens : ds.length = n ∧ ts.length = n ∧ ps.length = n ∧ ls.length = n ∧ fx.length = n ∧
    fo.length = n ∧ m.length = n
  lum : e.lum.draw n { lum := s.lum, rng := g3 } = .ok ls { lum := lum1, rng := g4 }
  phi : ∃ p o, e.lum.phi ls lum1.params = .ok p o ∧ p.length = n
  flux : e.spatial.transform ls ds = .ok fx
  aux : AuxPlayed e y s n g4 g4' ls { distance := ds, theta := ts, phi := ps } auxq am
  obs : ∀ t : SurvSt F G, t.heap.rng = g4' →
    t.heap.selectors y.fluxSel = s.heap.selectors y.fluxSel →
    observeFlux e y n a.fluxSigma a.log10Draw fx t =
      .ok (fo, sg) { t with heap := { t.heap with rng := g5 } }
  sel : selDraw e.world.sel e.world.half e.world.ninety e.world.showProgress n
    { sel := { s.heap.selectors y.fluxSel with
        data := { (s.heap.selectors y.fluxSel).data with flux := some fo } }, rng := g5 } =
    .ok () { sel := sel', rng := g6 }
  mask : sel'.selection = some m
  rmax : ∃ r o, e.spatial.readRMax sp3.params = .ok r o

/-- The synth has a luminosity distribution and no spatial selector; its two selectors are
different objects, and the one for fluxes has not been used. -/
structure Spec.Based (e : SurveyEnv F G) (y : Synth F) (s : SurvSt F G) : Prop where
  derived : y.derived = none
  lum : y.lumName ≠ none
  spat : y.spatSel = none
  apart : y.distSel ≠ y.fluxSel
  freshFlux : (s.heap.selectors y.fluxSel).isSampled = false
  spaces : ∀ q ∈ y.modelSpaces, q.2.length = y.nModel
  dict : ∀ t, ∃ d, e.toDict y t = .ok d

theorem Spec.Basic.based (h : Spec.Basic e y s) : Spec.Based e y s :=
  ⟨h.derived, h.lum, h.spat, h.apart, h.fresh.1, h.spaces, h.dict⟩

/-- What has been drawn and selected when all stages are through. -/
structure AllFacts (e : SurveyEnv F G) (y : Synth F) (a : SurveyArgs F) (s : SurvSt F G) (n : Nat)
    (g6 : G) (ds ts ps ls fx fo : List F) (auxq : Storage F) (m : List Bool) (d : Drawn F G)
    (s7 : SurvSt F G) : Prop where
  all : Nonempty (AllRun e y a s d s7)
  mask : d.glob.mask = .ok m
  pos : d.pos = { distance := ds, theta := ts, phi := ps }
  lums : d.lums = ls
  fluxes : d.fluxes = fx ∧ d.fluxObs = fo
  auxq : d.loc.auxq = auxq
  prob : d.prob.length = n
  rng : s7.heap.rng = g6
  distSel : s7.heap.selectors y.distSel = s.heap.selectors y.distSel
  rmax : ∃ r o, e.spatial.readRMax s7.sp.params = .ok r o
  links : ∀ i, (s7.heap.samplers i).isSecondary = (s.heap.samplers i).isSecondary ∧
    (s7.heap.samplers i).secondaries = (s.heap.samplers i).secondaries

theorem AuxStages.draws {n : Nat} {g6 : G} {ds ts ps ls fx fo : List F} {auxq : Storage F}
    {am m' : List Bool} (p : Based e y s)
    (r : AuxStages e y a s n g6 ds ts ps ls fx fo auxq am m') :
    ∃ d s7, AllFacts e y a s n g6 ds ts ps ls fx fo auxq (List.zipWith (· && ·) am m') d s7 := by
  let m := List.zipWith (· && ·) am m'
  obtain ⟨l1, l2, l3, l4, l5, l6, l7'⟩ := r.lens
  have l7 : m.length = n := by simp [m, l7', r.aux.len]
  obtain ⟨nm, hnm⟩ := Option.ne_none_iff_exists'.1 p.lum
  obtain ⟨pd, hpd, hpl⟩ := r.prob
  obtain ⟨pl, o2, hphi, hpll⟩ := r.phi
  obtain ⟨q1, q2, q3⟩ := r.pos
  -- seeding
  have k1 : reseed e y.seed s = .ok () { s with heap := { s.heap with rng := r.g0 } } :=
    onRng_of_ok (by rw [r.seed])
  -- positions
  let v : Spatial F := { distance := ds, theta := ts, phi := ps }
  have k3 : drawPositions e n a.normalize
      { s with sp := { s.sp with params := r.o1 }, heap := { s.heap with rng := r.g1 } } =
      .ok (v, List.zipWith e.mul (List.replicate n 1) pd)
        { s with sp := r.sp3, heap := { s.heap with rng := r.g3 } } := by
    unfold drawPositions
    rw [bind_of_ok (onSpatial_of_ok r.dist), bind_of_ok (get_apply _)]
    have e3 : mulProb e (List.replicate n 1) r.sp2.probability =
        .ok (List.zipWith e.mul (List.replicate n 1) pd) := by
      simp only [mulProb, hpd, optArray]
      exact inPlace_of_length _ (by simp [hpl])
    rw [bind_of_ok (liftE_of_ok _ e3), bind_of_ok (onSpatial_of_ok r.sky)]
    simp only [bind_apply, spatialValues, q1, q2, q3]
    rfl
  -- luminosities
  let s3 : SurvSt F G := { s with sp := r.sp3, heap := { s.heap with rng := r.g3 } }
  let s4 : SurvSt F G := { s with sp := r.sp3, lum := { params := o2, probability := some pl }, heap := { s.heap with rng := r.g4 } }
  have k4 : ∀ loc : Loc F, loc.prob.length = n → distLuminosity e n nm loc s3 =
      .ok (ls, { loc with prob := List.zipWith e.mul loc.prob pl, truth := Dict.set loc.truth nm (truthOf o2) }) s4 := by
    intro loc hl
    have e1 := onLum_of_ok (s := s3) r.lum
    have e2 : onLum (computeLumProbability e.lum ls)
        { s3 with lum := r.lum1, heap := { s3.heap with rng := r.g4 } } = .ok () s4 := by
      refine onLum_of_ok (t := { lum := { params := o2, probability := some pl }, rng := r.g4 }) ?_
      simp only [computeLumProbability, hphi]
    have e3 : mulProb e loc.prob (some pl) = .ok (List.zipWith e.mul loc.prob pl) := by
      simp only [mulProb, optArray]
      exact inPlace_of_length _ (by rw [hl, hpll])
    unfold distLuminosity
    rw [bind_of_ok e1, bind_of_ok e2, bind_of_ok (get_apply _)]
    exact (bind_of_ok (liftE_of_ok _ e3)).trans rfl
  have k4' := k4 { truth := [(y.spatialName, truthOf s.sp.params)], auxq := [], prob := List.zipWith e.mul (List.replicate n 1) pd }
    (by simp [hpl])
  -- fluxes and selection
  obtain ⟨loc', h', x1, x2, x3, x4, x5, x6, x7, x8⟩ := r.aux.run s4
    { truth := Dict.set [(y.spatialName, truthOf s.sp.params)] nm (truthOf o2), auxq := [],
      prob := List.zipWith e.mul (List.zipWith e.mul (List.replicate n 1) pd) pl } rfl rfl
  let s5 : SurvSt F G := { s4 with heap := h' }
  have k6 := r.obs s5 x4 x5
  let s6 : SurvSt F G := { s5 with heap := { s5.heap with rng := r.g5 } }
  let s6' : SurvSt F G := { s6 with heap := s6.heap.modSelector y.fluxSel fun c =>
    { c with data := { c.data with flux := some fo } } }
  have hs6 : s6'.heap.selectors y.fluxSel = { s.heap.selectors y.fluxSel with
        data := { (s.heap.selectors y.fluxSel).data with flux := some fo } } := by
    simp [s6', s6, s5, Heap.modSelector, x5]
  have hr6 : s6'.heap.rng = r.g5 := rfl
  let s7 : SurvSt F G := { s6' with heap :=
    { s6'.heap.modSelector y.fluxSel (fun _ => { r.sel' with isSampled := true }) with rng := g6 } }
  have k7 : selectOn e y.fluxSel n s6' = .ok () s7 := by
    refine onHeap_of_ok (withSelector_of_ok (t := { sel := { r.sel' with isSampled := true }, rng := g6 }) ?_)
    have hf : (s6'.heap.selectors y.fluxSel).isSampled = false := by rw [hs6]; exact p.freshFlux
    have hd := r.sel
    rw [← hs6, ← hr6] at hd
    rw [selSelect_apply]
    simp only [hf, Bool.false_eq_true, if_false, hd, r.mask]
  have hm7 : (s7.heap.selectors y.fluxSel).selection = some m' := by
    simp [s7, Heap.modSelector, r.mask]
  obtain ⟨asel, pr, y1, y2, y3⟩ := x8 s7 loc'.prob (by rw [x3]; simp [hpl, hpll])
    (fun q hq => by simp [s7, s6', s6, s5, Heap.modSelector, hq])
  obtain ⟨x1', a1, b1⟩ := add_of_masks (F := F) (G := G) (x := drawnUnity "global" n)
    (z := asel) (m := List.replicate n true) rfl y2 (by rw [List.length_replicate, r.aux.len])
  rw [← r.aux.len, and_true_left] at b1
  obtain ⟨x2', a2, b2⟩ := add_of_masks (z := s7.heap.selectors y.fluxSel) b1 hm7
    (by rw [r.aux.len, l7'])
  have k8 : applySelections e y n v fo loc' s6 = .ok (x2', pr) s7 := by
    unfold applySelections
    have k0 : onHeap (modify fun h : Heap F G => h.modSelector y.fluxSel fun c =>
        { c with data := { c.data with flux := some fo } }) s6 = .ok () s6' := onHeap_of_ok rfl
    rw [bind_of_ok k0, bind_of_ok k7, x2]
    refine (bind_of_ok y1).trans ?_
    refine (bind_of_ok (liftE_of_ok _ a1)).trans ?_
    rw [bind_of_ok (get_apply _)]
    refine (bind_of_ok (liftE_of_ok _ a2)).trans ?_
    unfold applySpatial
    rw [p.spat]
    rfl
  let d : Drawn F G :=
    { n := n, pos := v, lums := ls,
      loc := loc', fluxes := fx, fluxObs := fo, sigma := r.sg, glob := x2', prob := pr }
  have hall : AllRun e y a s d s7 :=
    { s1 := _, s2 := _, s3 := s3, s4 := s4, s5 := s5, s6 := s6, prob0 := _,
      loc1 := _, seeded := k1, counted := r.count, placed := k3
      lumd := by simp only [drawLuminosities, p.derived, hnm]; exact k4'
      transformed := r.flux
      auxd := x1
      observed := k6
      selected := k8 }
  exact ⟨d, s7,
    { all := ⟨hall⟩
      mask := by simp only [Selector.mask, d, b2]
      pos := rfl
      lums := rfl
      fluxes := ⟨rfl, rfl⟩
      auxq := x2
      prob := y3
      rng := rfl
      distSel := by simp [s7, s6', s6, s5, Heap.modSelector, p.apart, x6]
      rmax := r.rmax
      links := x7 }⟩

/-- The population for a given selection of known distances.  If objects are detected and no
distance is known, the survey fails. -/
theorem AllFacts.builds {n : Nat} {g6 g7 : G} {ds ts ps ls fx fo : List F} {auxq : Storage F}
    {m dm : List Bool} {d : Drawn F G} {s7 : SurvSt F G} {sel'' : Selector F G} (p : Based e y s)
    (r : AllFacts e y a s n g6 ds ts ps ls fx fo auxq m d s7)
    (lens : ds.length = n ∧ ts.length = n ∧ ps.length = n ∧ ls.length = n ∧ fx.length = n ∧
      fo.length = n ∧ m.length = n)
    (good : GoodAux n [] auxq)
    (attached : ∀ k i, (k, i) ∈ y.aux → (s.heap.samplers i).isSecondary = false ∧
      (s.heap.samplers i).secondaries = [] ∧ 0 < e.frames)
    (fresh : (s.heap.selectors y.distSel).isSampled = false)
    (draw : selDraw e.world.sel e.world.half e.world.ninety e.world.showProgress (countTrue m)
      { sel := s.heap.selectors y.distSel, rng := g6 } = .ok () { sel := sel'', rng := g7 })
    (hmask : sel''.selection = some dm) (hlen : dm.length = countTrue m) :
    (0 < countTrue m ∧ countTrue dm = 0 → ∃ s', drawSurvey e y a s = .error .value s' ∧
      s'.heap.rng = g7) ∧
    (¬ (0 < countTrue m ∧ countTrue dm = 0) →
    ∃ (Q : Population F) (s' : SurvSt F G), drawSurvey e y a s = .ok Q s' ∧ s'.heap.rng = g7 ∧
      Q.selection = m ∧
      Q.attrs = auxq.foldl (fun a p => Dict.set a p.1 (quantityVar Q.selection p.2)) [] ∧
      Q.distances = { obs := ds, latent := ds, selection := Q.selection } ∧
      Q.theta = { obs := ts, latent := ts, selection := Q.selection } ∧
      Q.phi = { obs := ps, latent := ps, selection := Q.selection } ∧
      Q.luminosities = { obs := ls, latent := ls, selection := Q.selection } ∧
      Q.fluxes = { obs := fo, latent := fx, selection := Q.selection } ∧
      Q.nDetections = countTrue Q.selection ∧ Q.nNonDetections = n - countTrue Q.selection ∧
      Q.knownDistances = pick (pick ds m) dm ∧ Q.knownIdx = selectionIndex dm ∧
      Q.unknownIdx = nonSelectionIndex dm) := by
  obtain ⟨l1, l2, l3, l4, l5, l6, l7⟩ := lens
  obtain ⟨⟨hall⟩, hgm, hpos, hlums, ⟨hfx, hfo⟩, hauxq, hprob, hrng, hds, ⟨rm, o3, hrm⟩, hsec⟩ := r
  obtain ⟨n', pos, lums, loc, fluxes, fluxObs, sigma, glob, prob⟩ := d
  obtain ⟨truth, auxq', prob'⟩ := loc
  simp only at hpos hlums hfx hfo hauxq hprob hgm hall
  subst hpos hlums hfx hfo hauxq
  let s8 : SurvSt F G := { s7 with heap := { s7.heap.modSelector y.distSel (fun _ =>
    { sel'' with isSampled := true }) with rng := g7 } }
  have k9 : selectOn e y.distSel (countTrue m) s7 = .ok () s8 := by
    refine onHeap_of_ok (withSelector_of_ok (t := { sel := { sel'' with isSampled := true }, rng := g7 }) ?_)
    rw [selSelect_apply, hds, hrng]
    simp only [fresh, Bool.false_eq_true, if_false, draw, hmask]
  have hdm : (s8.heap.selectors y.distSel).mask = .ok dm := by
    simp [s8, Heap.modSelector, Selector.mask, hmask]
  have hsel : maskIndex ds m = .ok (pick ds m) := by
    unfold maskIndex; rw [if_pos (by rw [l1, l7])]
  have hpl' : (pick ds m).length = countTrue m := pick_length _ _ (by rw [l1, l7])
  have hknown : maskIndex (pick ds m) dm = .ok (pick (pick ds m) dm) := by
    unfold maskIndex; rw [if_pos (by rw [hpl', hlen])]
  have hkl : (pick (pick ds m) dm).length = countTrue dm :=
    pick_length _ _ (by rw [hpl', hlen])
  refine ⟨?_, ?_⟩
  · rintro ⟨h1, h2⟩
    have hlog : logFarthest glob (pick (pick ds m) dm) = .error .value := by
      unfold logFarthest
      rw [hgm]
      show (if countTrue m > 0 ∧ _ then _ else _) = _
      rw [if_pos ⟨h1, List.eq_nil_of_length_eq_zero (by rw [hkl, h2])⟩]
      rfl
    refine ⟨s8, ?_, rfl⟩
    unfold drawSurvey
    rw [bind_of_ok hall.returns]
    unfold buildPopulation
    refine (bind_of_ok (liftE_of_ok _ hgm)).trans ?_
    refine (bind_of_ok k9).trans ?_
    rw [bind_of_ok (get_apply _)]
    refine (bind_of_ok (liftE_of_ok _ hdm)).trans ?_
    refine (bind_of_ok (liftE_of_ok _ hsel)).trans ?_
    refine (bind_of_ok (liftE_of_ok _ hknown)).trans ?_
    have hl2 : (liftE (logFarthest glob (pick (pick ds m) dm)) : Py (SurvSt F G) Unit) s8 = .error .value s8 := by
      rw [hlog]; rfl
    simp only [bind_apply, hl2]
  intro hne
  have hlog : logFarthest glob (pick (pick ds m) dm) = .ok () := by
    unfold logFarthest
    rw [hgm]
    show (if countTrue m > 0 ∧ _ then _ else _) = _
    rw [if_neg]
    · rfl
    · rintro ⟨h1, h2⟩
      exact hne ⟨h1, by rw [← hkl, h2]; rfl⟩
  have k10 : onSpatial (onParams e.spatial.readRMax) s8 =
      .ok rm { s8 with sp := { s8.sp with params := o3 } } := by
    refine onSpatial_of_ok (t := { sp := { s8.sp with params := o3 }, rng := s8.heap.rng }) ?_
    unfold onParams
    simp only [show s8.sp.params = s7.sp.params from rfl, hrm]
  have conf : ∀ k j, InConfig y s8.heap k j → (s8.heap.samplers j).secondaries = [] ∧ 0 < e.frames := by
    rintro k j (⟨k0, i, hm', hb⟩ | ⟨d', hd', -⟩)
    · obtain ⟨-, c1, c2⟩ := attached k0 i hm'
      have c1' : (s8.heap.samplers i).secondaries = [] := (hsec i).2.trans c1
      cases hb with
      | here => exact ⟨c1', c2⟩
      | step hm'' _ => rw [c1'] at hm''; cases hm''
    · rw [p.derived] at hd'; cases hd'
  obtain ⟨gr, k11⟩ := C44_returns e.frames y s8.heap s8.graph (fun _ => 0) (Or.inr p.lum)
    (fun k i hm' => (hsec i).1.trans (attached k i hm').1)
    (fun k j h n c hm' => by rw [(conf k j h).1] at hm'; cases hm')
    (fun k j h => (conf k j h).2)
    (fun k j h n c hm' => by rw [(conf k j h).1] at hm'; cases hm')
  let s9 : SurvSt F G := { s8 with sp := { s8.sp with params := o3 }, graph := gr }
  have k12 : onGraph (buildGraph e.frames y s8.heap) { s8 with sp := { s8.sp with params := o3 } } =
      .ok () s9 := by
    unfold onGraph
    simp only [k11, s9]
  obtain ⟨pd', k13⟩ := p.dict s9
  obtain ⟨Q, k14⟩ := (C30_construction (popArgs y
      (⟨n', ⟨ds, ts, ps⟩, lums, ⟨truth, auxq', prob'⟩, fluxes, fluxObs, sigma, glob, prob⟩ : Drawn F G) m dm
      (pick (pick ds m) dm) rm pd')).2
    (by
      refine ⟨?_, ?_, ?_, ?_, ?_⟩
      · intro l hl
        simp only [popArgs, List.mem_cons, List.not_mem_nil, or_false] at hl ⊢
        rcases hl with rfl | rfl | rfl | rfl | rfl | rfl <;> omega
      · intro q hq
        simp only [popArgs, Option.some.injEq] at hq ⊢
        rw [← hq, hprob, l7]
      · simp only [popArgs]
        obtain ⟨-, -, -, -, -, -, -, i1, i2, i3⟩ := C09_index_partition dm
        rw [hkl, i1, ← countTrue_eq]
        rw [i3, hlen] at i2
        exact i2
      · intro q hq
        simp only [popArgs, Option.some.injEq] at hq ⊢
        subst hq
        rw [l7]
        exact good
      · intro _ k v hkv
        exact p.spaces (k, v) hkv)
  have pk := mkPopulation_ok k14
  have hb : BuildRun e y
      (⟨n', ⟨ds, ts, ps⟩, lums, ⟨truth, auxq', prob'⟩, fluxes, fluxObs, sigma, glob, prob⟩ : Drawn F G) s7 Q s9 :=
    ⟨s8, _, m, _, _, _, rm, pd', hgm, k9, hdm, hsel, hknown, hlog, k10, k12, k13, k14⟩
  have hQs : Q.selection = m := pk.rest.2.2.2.1
  refine ⟨Q, s9, ?_, rfl, hQs, ?_, by rw [hQs]; exact pk.distances, by rw [hQs]; exact pk.theta,
    by rw [hQs]; exact pk.phi, by rw [hQs]; exact pk.luminosities, by rw [hQs]; exact pk.fluxes,
    by rw [hQs]; exact pk.counts.2.1, ?_, pk.rest.1, pk.rest.2.1, pk.rest.2.2.1⟩
  · unfold drawSurvey
    rw [bind_of_ok hall.returns]
    exact hb.returns
  · have hx := pk.aux
    simp only [popArgs, auxAttrs] at hx
    rw [hQs]
    exact ((addAttrs_ok_iff _ _ _ _ _ _).1 hx).2.2
  · rw [pk.counts.2.2.1, hQs]
    show m.length - _ = _
    rw [l7]
    rfl

theorem AuxStages.returns {n : Nat} {g6 : G} {ds ts ps ls fx fo : List F} {auxq : Storage F}
    {am m' : List Bool} (p : Basic e y s)
    (r : AuxStages e y a s n g6 ds ts ps ls fx fo auxq am m') :
    ∃ (Q : Population F) (s' : SurvSt F G), drawSurvey e y a s = .ok Q s' ∧ s'.heap.rng = g6 ∧
      Q.selection = List.zipWith (· && ·) am m' ∧
      Q.attrs = auxq.foldl (fun a p => Dict.set a p.1 (quantityVar Q.selection p.2)) [] ∧
      Q.distances = { obs := ds, latent := ds, selection := Q.selection } ∧
      Q.theta = { obs := ts, latent := ts, selection := Q.selection } ∧
      Q.phi = { obs := ps, latent := ps, selection := Q.selection } ∧
      Q.luminosities = { obs := ls, latent := ls, selection := Q.selection } ∧
      Q.fluxes = { obs := fo, latent := fx, selection := Q.selection } ∧
      Q.nDetections = countTrue Q.selection ∧ Q.nNonDetections = n - countTrue Q.selection := by
  have p' := p.based
  obtain ⟨d, s7, f⟩ := r.draws p'
  obtain ⟨l1, l2, l3, l4, l5, l6, l7⟩ := r.lens
  have l7' : (List.zipWith (· && ·) am m').length = n := by simp [l7, r.aux.len]
  have hc : countTrue (List.replicate (countTrue (List.zipWith (· && ·) am m')) true) =
      countTrue (List.zipWith (· && ·) am m') := by
    rw [countTrue_eq]; simp
  obtain ⟨Q, s', h1, h2, h3, h4, h5, h6, h7, h8, h9, h10, h11, -⟩ := (f.builds p'
    (dm := List.replicate (countTrue (List.zipWith (· && ·) am m')) true) (g7 := g6)
    (sel'' := { s.heap.selectors y.distSel with
      selection := some (List.replicate (countTrue (List.zipWith (· && ·) am m')) true) })
    ⟨l1, l2, l3, l4, l5, l6, l7'⟩ r.aux.good r.aux.attached p.fresh.2
    (by simp [selDraw, bind_apply, p.known, setMask]) rfl (by simp)).2 (by rw [hc]; omega)
  exact ⟨Q, s', h1, h2, h3, h4, h5, h6, h7, h8, h9, h10, h11⟩

/-- The synth has a luminosity distribution, no auxiliary quantities and no spatial selector;
its two selectors are different objects that have not been used, and the one for distances
selects everything. -/
structure Spec.Plain (e : SurveyEnv F G) (y : Synth F) (s : SurvSt F G) : Prop where
  derived : y.derived = none
  lum : y.lumName ≠ none
  aux : y.aux = []
  spat : y.spatSel = none
  apart : y.distSel ≠ y.fluxSel
  fresh : (s.heap.selectors y.fluxSel).isSampled = false ∧
    (s.heap.selectors y.distSel).isSampled = false
  known : (s.heap.selectors y.distSel).kind = .unity
  spaces : ∀ q ∈ y.modelSpaces, q.2.length = y.nModel
  dict : ∀ t, ∃ d, e.toDict y t = .ok d

/-- What the stages of a survey of a plain synth do. -/
structure Stages (e : SurveyEnv F G) (y : Synth F) (a : SurveyArgs F) (s : SurvSt F G) (n : Nat)
    (g6 : G) (ds ts ps ls fx fo : List F) (m : List Bool) where
  (g0 g1 g2 g3 g4 g5 : G)
  (o1 : Obj F)
  (sp2 sp3 : Spat F)
  (lum1 : Lum F)
  (sg : F)
  (sel' : Selector F G)
  seed : e.seed y.seed s.heap.rng = .ok g0
  count : countObjects e a.nSamples a.normalize { s with heap := { s.heap with rng := g0 } } =
    .ok n { s with sp := { s.sp with params := o1 }, heap := { s.heap with rng := g1 } }
  dist : e.spatial.drawDistance n a.normalize { sp := { s.sp with params := o1 }, rng := g1 } =
    .ok () { sp := sp2, rng := g2 }
  prob : ∃ p, sp2.probability = some p ∧ p.length = n
  sky : e.spatial.drawSky n { sp := sp2, rng := g2 } = .ok () { sp := sp3, rng := g3 }
  pos : sp3.distances = some ds ∧ sp3.theta = some ts ∧ sp3.phi = some ps
  lens : ds.length = n ∧ ts.length = n ∧ ps.length = n ∧ ls.length = n ∧ fx.length = n ∧
    fo.length = n ∧ m.length = n
  lum : e.lum.draw n { lum := s.lum, rng := g3 } = .ok ls { lum := lum1, rng := g4 }
  phi : ∃ p o, e.lum.phi ls lum1.params = .ok p o ∧ p.length = n
  flux : e.spatial.transform ls ds = .ok fx
  obs : ∀ t : SurvSt F G, t.heap.rng = g4 →
    t.heap.selectors y.fluxSel = s.heap.selectors y.fluxSel →
    observeFlux e y n a.fluxSigma a.log10Draw fx t =
      .ok (fo, sg) { t with heap := { t.heap with rng := g5 } }
  sel : selDraw e.world.sel e.world.half e.world.ninety e.world.showProgress n
    { sel := { s.heap.selectors y.fluxSel with
        data := { (s.heap.selectors y.fluxSel).data with flux := some fo } }, rng := g5 } =
    .ok () { sel := sel', rng := g6 }
  mask : sel'.selection = some m
  rmax : ∃ r o, e.spatial.readRMax sp3.params = .ok r o

/-- The stages of a survey without auxiliary quantities. -/
def Stages.auxStages {n : Nat} {g6 : G} {ds ts ps ls fx fo : List F} {m : List Bool}
    (haux : y.aux = []) (r : Stages e y a s n g6 ds ts ps ls fx fo m) :
    AuxStages e y a s n g6 ds ts ps ls fx fo [] (List.replicate n true) m :=
  have ha : AuxPlayed e y s n r.g4 r.g4 ls { distance := ds, theta := ts, phi := ps } []
      (List.replicate n true) :=
    { len := by simp
      good := ⟨fun k v h => (by cases h), by simp⟩
      attached := by intro k i hm; rw [haux] at hm; cases hm
      run := by
        intro t loc ht hloc
        refine ⟨loc, t.heap, ?_, hloc, rfl, by rw [ht], by rw [ht], by rw [ht], fun i => by rw [ht]; exact ⟨rfl, rfl⟩,
          fun t' prob hp _ => ⟨_, _, rfl, rfl, hp⟩⟩
        rw [haux]; rfl }
  { g0 := r.g0, g1 := r.g1, g2 := r.g2, g3 := r.g3, g4 := r.g4, g4' := r.g4, g5 := r.g5
    o1 := r.o1, sp2 := r.sp2, sp3 := r.sp3, lum1 := r.lum1, sg := r.sg, sel' := r.sel'
    seed := r.seed, count := r.count, dist := r.dist, prob := r.prob, sky := r.sky, pos := r.pos
    lens := r.lens, lum := r.lum, phi := r.phi, flux := r.flux, aux := ha, obs := r.obs
    sel := r.sel, mask := r.mask, rmax := r.rmax }

theorem Stages.returns {n : Nat} {g6 : G} {ds ts ps ls fx fo : List F} {m : List Bool}
    (p : Plain e y s) (r : Stages e y a s n g6 ds ts ps ls fx fo m) :
    ∃ (Q : Population F) (s' : SurvSt F G), drawSurvey e y a s = .ok Q s' ∧ s'.heap.rng = g6 ∧
      Q.distances = { obs := ds, latent := ds, selection := m } ∧
      Q.theta = { obs := ts, latent := ts, selection := m } ∧
      Q.phi = { obs := ps, latent := ps, selection := m } ∧
      Q.luminosities = { obs := ls, latent := ls, selection := m } ∧
      Q.fluxes = { obs := fo, latent := fx, selection := m } ∧ Q.selection = m ∧
      Q.nDetections = countTrue m ∧ Q.nNonDetections = n - countTrue m := by
  have hb : Basic e y s := ⟨p.derived, p.lum, p.spat, p.apart, p.fresh, p.known, p.spaces, p.dict⟩
  have hl := r.lens.2.2.2.2.2.2
  obtain ⟨Q, s', h1, h2, h3, -, h4, h5, h6, h7, h8, h9, h10⟩ := (r.auxStages p.aux).returns hb
  rw [← hl, and_true_left] at h3
  rw [h3] at h4 h5 h6 h7 h8 h9 h10
  exact ⟨Q, s', h1, h2, h4, h5, h6, h7, h8, h3, h9, h10⟩

/-- A survey whose selection of known distances is `dm`: it fails if objects are detected and no
distance is known. -/
theorem Stages.known {n : Nat} {g6 g7 : G} {ds ts ps ls fx fo : List F} {m dm : List Bool}
    {sel'' : Selector F G} (p : Based e y s) (haux : y.aux = [])
    (r : Stages e y a s n g6 ds ts ps ls fx fo m)
    (fresh : (s.heap.selectors y.distSel).isSampled = false)
    (draw : selDraw e.world.sel e.world.half e.world.ninety e.world.showProgress (countTrue m)
      { sel := s.heap.selectors y.distSel, rng := g6 } = .ok () { sel := sel'', rng := g7 })
    (hmask : sel''.selection = some dm) (hlen : dm.length = countTrue m) :
    (0 < countTrue m ∧ countTrue dm = 0 → ∃ s', drawSurvey e y a s = .error .value s' ∧
      s'.heap.rng = g7) ∧
    (¬ (0 < countTrue m ∧ countTrue dm = 0) →
    ∃ (Q : Population F) (s' : SurvSt F G), drawSurvey e y a s = .ok Q s' ∧ s'.heap.rng = g7 ∧
      Q.distances = { obs := ds, latent := ds, selection := m } ∧
      Q.theta = { obs := ts, latent := ts, selection := m } ∧
      Q.phi = { obs := ps, latent := ps, selection := m } ∧
      Q.luminosities = { obs := ls, latent := ls, selection := m } ∧
      Q.fluxes = { obs := fo, latent := fx, selection := m } ∧ Q.selection = m ∧
      Q.nDetections = countTrue m ∧ Q.nNonDetections = n - countTrue m ∧
      Q.knownDistances = pick (pick ds m) dm ∧ Q.knownIdx = selectionIndex dm ∧
      Q.unknownIdx = nonSelectionIndex dm) := by
  have hl := r.lens.2.2.2.2.2.2
  subst hl
  have st := r.auxStages haux
  obtain ⟨d, s7, f⟩ := st.draws p
  rw [and_true_left] at f
  obtain ⟨b1, b2⟩ := f.builds p r.lens st.aux.good st.aux.attached fresh draw hmask hlen
  refine ⟨b1, fun hne => ?_⟩
  obtain ⟨Q, s', h1, h2, h3, -, h4, h5, h6, h7, h8, h9, h10, h11, h12, h13⟩ := b2 hne
  rw [h3] at h4 h5 h6 h7 h8 h9 h10
  exact ⟨Q, s', h1, h2, h4, h5, h6, h7, h8, h3, h9, h10, h11, h12, h13⟩

end Popsynth
