import Verif.Lemmas.SurveyPlain
import Verif.Spec.Troupe

/-!
# Surveys put together from their stages, for any source of luminosities
-/

set_option autoImplicit false
set_option linter.unusedSectionVars false

namespace Popsynth
open Spec

variable {F G : Type} [LE F] [DecidableLE F] [OfNat F 0] [OfNat F 1]
variable {e : SurveyEnv F G} {y : Synth F} {a : SurveyArgs F} {s : SurvSt F G}

theorem below_of_links {h h' : Heap F G} (hl : SameLinks h h') {k0 k : String} {i j : Nat}
    (hb : Below h' k0 i k j) : Below h k0 i k j := by
  induction hb with
  | here k i => exact .here k i
  | step hm _ ih => exact .step (by rw [← (hl _).2.2.1]; exact hm) ih

theorem inConfig_of_links {h h' : Heap F G} (hl : SameLinks h h') {k : String} {j : Nat}
    (hb : InConfig y h' k j) : InConfig y h k j := by
  rcases hb with ⟨k0, i, hm, hb⟩ | ⟨d, hd, hb⟩
  · exact .inl ⟨k0, i, hm, below_of_links hl hb⟩
  · refine .inr ⟨d, hd, ?_⟩
    rw [← (hl d).1]
    exact below_of_links hl hb

theorem Spec.Grounded.returns {k : Nat} {h h' : Heap F G} (p : Grounded k y h)
    (hy : y.derived ≠ none ∨ y.lumName ≠ none) (hl : SameLinks h h') (g : Graph) :
    ∃ g', buildGraph k y h' g = .ok () g' := by
  obtain ⟨rank, p1, p2, p3, p4⟩ := p
  refine C44_returns k y h' g rank hy ?_ ?_ ?_ ?_
  · exact fun k i hm => (hl i).2.1.trans (p1 k i hm)
  · intro k j hb n c hm
    exact p2 k j (inConfig_of_links hl hb) n c (by rw [← (hl j).2.2.1]; exact hm)
  · exact fun k j hb => p3 k j (inConfig_of_links hl hb)
  · rintro k0 j0 hb n c hm k j ⟨n', c', hm', hb'⟩
    rw [(hl j).2.2.2]
    refine p4 k0 j0 (inConfig_of_links hl hb) n c (by rw [← (hl j0).2.2.1]; exact hm) k j ⟨n', c', ?_, below_of_links hl hb'⟩
    rw [← (hl c).2.2.1]; exact hm'

/-- What the stages of a survey do. -/
structure CoreStages (e : SurveyEnv F G) (y : Synth F) (a : SurveyArgs F) (s : SurvSt F G) (n : Nat)
    (g6 : G) (ds ts ps ls fx fo : List F) (auxq : Storage F) (am m : List Bool) where
  (g0 g1 g2 g3 g5 : G)
  (o1 : Obj F)
  (sp2 sp3 : Spat F)
  (lum4 : Lum F)
  (h4 h5 : Heap F G)
  (auxq0 : Storage F)
  (sg : F)
  (sel' : Selector F G)
  seed : e.seed y.seed s.heap.rng = .ok g0
  count : countObjects e a.nSamples a.normalize { s with heap := { s.heap with rng := g0 } } =
    .ok n { s with sp := { s.sp with params := o1 }, heap := { s.heap with rng := g1 } }
  dist : e.spatial.drawDistance n a.normalize { sp := { s.sp with params := o1 }, rng := g1 } =
    .ok () { sp := sp2, rng := g2 }
  prob : ∃ p, sp2.probability = some p ∧ p.length = n
  sky : e.spatial.drawSky n { sp := sp2, rng := g2 } = .ok () { sp := sp3, rng := g3 }
  pos : sp3.distances = some ds ∧ sp3.theta = some ts ∧ sp3.phi = some ps
  lens : ds.length = n ∧ ts.length = n ∧ ps.length = n ∧ ls.length = n ∧ fx.length = n ∧
    fo.length = n ∧ m.length = n
  lumd : ∀ loc : Loc F, loc.auxq = [] → loc.prob.length = n → ∃ loc',
    drawLuminosities e y n { distance := ds, theta := ts, phi := ps } loc
      { s with sp := sp3, heap := { s.heap with rng := g3 } } =
      .ok (ls, loc') { s with sp := sp3, lum := lum4, heap := h4 } ∧
    loc'.auxq = auxq0 ∧ loc'.prob.length = n
  flux : e.spatial.transform ls ds = .ok fx
  auxd : ∀ loc : Loc F, loc.auxq = auxq0 → ∃ loc',
    foldPy y.aux loc (auxStep e n ls { distance := ds, theta := ts, phi := ps })
      { s with sp := sp3, lum := lum4, heap := h4 } =
      .ok loc' { s with sp := sp3, lum := lum4, heap := h5 } ∧
    loc'.auxq = auxq ∧ loc'.prob = loc.prob
  len : am.length = n
  good : GoodAux n [] auxq
  fluxSel : h5.selectors y.fluxSel = s.heap.selectors y.fluxSel
  distSel : h5.selectors y.distSel = s.heap.selectors y.distSel
  links : SameLinks s.heap h5
  apply : ∀ (t : SurvSt F G) (prob : List F), prob.length = n →
    (∀ q, q ≠ y.fluxSel → t.heap.selectors q = h5.selectors q) →
    ∃ sel prob', foldPy auxq ((drawnUnity "total auxiliary selection" n : Selector F G), prob)
      (applyAux e) t = .ok (sel, prob') t ∧ sel.selection = some am ∧ prob'.length = n
  obs : ∀ t : SurvSt F G, t.heap.rng = h5.rng →
    t.heap.selectors y.fluxSel = s.heap.selectors y.fluxSel →
    observeFlux e y n a.fluxSigma a.log10Draw fx t =
      .ok (fo, sg) { t with heap := { t.heap with rng := g5 } }
  sel : selDraw e.world.sel e.world.half e.world.ninety e.world.showProgress n
    { sel := { s.heap.selectors y.fluxSel with
        data := { (s.heap.selectors y.fluxSel).data with flux := some fo } }, rng := g5 } =
    .ok () { sel := sel', rng := g6 }
  mask : sel'.selection = some m
  rmax : ∃ r o, e.spatial.readRMax sp3.params = .ok r o

theorem CoreStages.returns {n : Nat} {g6 : G} {ds ts ps ls fx fo : List F} {auxq : Storage F}
    {am m' : List Bool} (p : Equipped e y s)
    (r : CoreStages e y a s n g6 ds ts ps ls fx fo auxq am m') :
    ∃ (Q : Population F) (s' : SurvSt F G), drawSurvey e y a s = .ok Q s' ∧ s'.heap.rng = g6 ∧
      Q.selection = List.zipWith (· && ·) am m' ∧
      Q.attrs = auxq.foldl (fun a p => Dict.set a p.1 (quantityVar Q.selection p.2)) [] ∧
      Q.distances = { obs := ds, latent := ds, selection := Q.selection } ∧
      Q.theta = { obs := ts, latent := ts, selection := Q.selection } ∧
      Q.phi = { obs := ps, latent := ps, selection := Q.selection } ∧
      Q.luminosities = { obs := ls, latent := ls, selection := Q.selection } ∧
      Q.fluxes = { obs := fo, latent := fx, selection := Q.selection } ∧
      Q.nDetections = countTrue Q.selection ∧ Q.nNonDetections = n - countTrue Q.selection := by
  let m := List.zipWith (· && ·) am m'
  obtain ⟨l1, l2, l3, l4, l5, l6, l7'⟩ := r.lens
  have l7 : m.length = n := by simp [m, l7', r.len]
  obtain ⟨pd, hpd, hpl⟩ := r.prob
  obtain ⟨rm, o3, hrm⟩ := r.rmax
  obtain ⟨q1, q2, q3⟩ := r.pos
  -- seeding
  have k1 : reseed e y.seed s = .ok () { s with heap := { s.heap with rng := r.g0 } } :=
    onRng_of_ok (by rw [r.seed])
  -- positions
  let v : Spatial F := { distance := ds, theta := ts, phi := ps }
  have k3 : drawPositions e n a.normalize
      { s with sp := { s.sp with params := r.o1 }, heap := { s.heap with rng := r.g1 } } =
      .ok (v, List.zipWith e.mul (List.replicate n 1) pd)
        { s with sp := r.sp3, heap := { s.heap with rng := r.g3 } } := by
    unfold drawPositions
    rw [bind_of_ok (onSpatial_of_ok r.dist), bind_of_ok (get_apply _)]
    have e3 : mulProb e (List.replicate n 1) r.sp2.probability =
        .ok (List.zipWith e.mul (List.replicate n 1) pd) := by
      simp only [mulProb, hpd, optArray]
      exact inPlace_of_length _ (by simp [hpl])
    rw [bind_of_ok (liftE_of_ok _ e3), bind_of_ok (onSpatial_of_ok r.sky)]
    simp only [bind_apply, spatialValues, q1, q2, q3]
    rfl
  -- luminosities
  let s3 : SurvSt F G := { s with sp := r.sp3, heap := { s.heap with rng := r.g3 } }
  let s4 : SurvSt F G := { s with sp := r.sp3, lum := r.lum4, heap := r.h4 }
  obtain ⟨loc4, k4, z1, z2⟩ := r.lumd
    { truth := [(y.spatialName, truthOf s.sp.params)], auxq := [], prob := List.zipWith e.mul (List.replicate n 1) pd }
    rfl (by simp [hpl])
  -- fluxes and selection
  obtain ⟨loc', x1, x2, x3⟩ := r.auxd loc4 z1
  let h' := r.h5
  have x5 : h'.selectors y.fluxSel = s.heap.selectors y.fluxSel := r.fluxSel
  have x6 : h'.selectors y.distSel = s.heap.selectors y.distSel := r.distSel
  let s5 : SurvSt F G := { s4 with heap := h' }
  have k6 := r.obs s5 rfl x5
  let s6 : SurvSt F G := { s5 with heap := { s5.heap with rng := r.g5 } }
  let s6' : SurvSt F G := { s6 with heap := s6.heap.modSelector y.fluxSel fun c =>
    { c with data := { c.data with flux := some fo } } }
  have hs6 : s6'.heap.selectors y.fluxSel = { s.heap.selectors y.fluxSel with
        data := { (s.heap.selectors y.fluxSel).data with flux := some fo } } := by
    simp [s6', s6, s5, Heap.modSelector, x5]
  have hr6 : s6'.heap.rng = r.g5 := rfl
  let s7 : SurvSt F G := { s6' with heap :=
    { s6'.heap.modSelector y.fluxSel (fun _ => { r.sel' with isSampled := true }) with rng := g6 } }
  have k7 : selectOn e y.fluxSel n s6' = .ok () s7 := by
    refine onHeap_of_ok (withSelector_of_ok (t := { sel := { r.sel' with isSampled := true }, rng := g6 }) ?_)
    have hf : (s6'.heap.selectors y.fluxSel).isSampled = false := by rw [hs6]; exact p.fresh.1
    have hd := r.sel
    rw [← hs6, ← hr6] at hd
    rw [selSelect_apply]
    simp only [hf, Bool.false_eq_true, if_false, hd, r.mask]
  have hm7 : (s7.heap.selectors y.fluxSel).selection = some m' := by
    simp [s7, Heap.modSelector, r.mask]
  obtain ⟨asel, pr, y1, y2, y3⟩ := r.apply s7 loc'.prob (by rw [x3, z2])
    (fun q hq => by simp [s7, s6', s6, s5, h', Heap.modSelector, hq])
  obtain ⟨x1', a1, b1⟩ := add_of_masks (F := F) (G := G) (x := drawnUnity "global" n)
    (z := asel) (m := List.replicate n true) rfl y2 (by rw [List.length_replicate, r.len])
  rw [← r.len, and_true_left] at b1
  obtain ⟨x2', a2, b2⟩ := add_of_masks (z := s7.heap.selectors y.fluxSel) b1 hm7
    (by rw [r.len, l7'])
  have k8 : applySelections e y n v fo loc' s6 = .ok (x2', pr) s7 := by
    unfold applySelections
    have k0 : onHeap (modify fun h : Heap F G => h.modSelector y.fluxSel fun c =>
        { c with data := { c.data with flux := some fo } }) s6 = .ok () s6' := onHeap_of_ok rfl
    rw [bind_of_ok k0, bind_of_ok k7, x2]
    refine (bind_of_ok y1).trans ?_
    refine (bind_of_ok (liftE_of_ok _ a1)).trans ?_
    rw [bind_of_ok (get_apply _)]
    refine (bind_of_ok (liftE_of_ok _ a2)).trans ?_
    unfold applySpatial
    rw [p.spat]
    rfl
  let d : Drawn F G :=
    { n := n, pos := v, lums := ls,
      loc := loc', fluxes := fx, fluxObs := fo, sigma := r.sg, glob := x2', prob := pr }
  have hall : AllRun e y a s d s7 :=
    { s1 := _, s2 := _, s3 := s3, s4 := s4, s5 := s5, s6 := s6, prob0 := _,
      loc1 := _, seeded := k1, counted := r.count, placed := k3
      lumd := k4
      transformed := r.flux
      auxd := x1
      observed := k6
      selected := k8 }
  -- the population
  have hgm : d.glob.mask = .ok m := by simp only [Selector.mask, d, b2, m]
  have hds : s7.heap.selectors y.distSel = s.heap.selectors y.distSel := by
    simp [s7, s6', s6, s5, Heap.modSelector, p.apart, x6]
  let s8 : SurvSt F G := { s7 with heap := { s7.heap.modSelector y.distSel (fun _ =>
    { s.heap.selectors y.distSel with selection := some (List.replicate (countTrue m) true), isSampled := true })
      with rng := g6 } }
  have k9 : selectOn e y.distSel (countTrue m) s7 = .ok () s8 := by
    refine onHeap_of_ok (withSelector_of_ok (t := { sel := { s.heap.selectors y.distSel with selection := some (List.replicate (countTrue m) true), isSampled := true }, rng := g6 }) ?_)
    rw [selSelect_apply, hds]
    have : selDraw e.world.sel e.world.half e.world.ninety e.world.showProgress (countTrue m)
        { sel := s.heap.selectors y.distSel, rng := s7.heap.rng } =
        .ok () { sel := { s.heap.selectors y.distSel with selection := some (List.replicate (countTrue m) true) }, rng := g6 } := by
      simp [selDraw, bind_apply, p.known, setMask, s7]
    simp only [p.fresh.2, Bool.false_eq_true, if_false, this]
  have hdm : (s8.heap.selectors y.distSel).mask = .ok (List.replicate (countTrue m) true) := by
    simp [s8, Heap.modSelector, Selector.mask]
  have hsel : maskIndex d.pos.distance m = .ok (pick ds m) := by
    show maskIndex ds m = _
    unfold maskIndex; rw [if_pos (by rw [l1, l7])]
  have hpl' : (pick ds m).length = countTrue m := pick_length _ _ (by rw [l1, l7])
  have hknown : maskIndex (pick ds m) (List.replicate (countTrue m) true) =
      .ok (pick (pick ds m) (List.replicate (countTrue m) true)) := by
    unfold maskIndex; rw [if_pos (by rw [hpl']; simp)]
  have hkl : (pick (pick ds m) (List.replicate (countTrue m) true)).length =
      countTrue (List.replicate (countTrue m) true) :=
    pick_length _ _ (by rw [hpl']; simp)
  have hlog : logFarthest d.glob (pick (pick ds m) (List.replicate (countTrue m) true)) = .ok () := by
    unfold logFarthest
    rw [hgm]
    show (if countTrue m > 0 ∧ _ then _ else _) = _
    rw [if_neg]
    · rfl
    · rintro ⟨h1, h2⟩
      exact pick_ne_nil _ _ (by rw [hpl']; simp) (by simp; omega) h2
  have k10 : onSpatial (onParams e.spatial.readRMax) s8 =
      .ok rm { s8 with sp := { s8.sp with params := o3 } } := by
    refine onSpatial_of_ok (t := { sp := { s8.sp with params := o3 }, rng := s8.heap.rng }) ?_
    unfold onParams
    simp only [show s8.sp.params = r.sp3.params from rfl, hrm]
  obtain ⟨gr, k11⟩ := p.rooted.returns p.lum (h' := s8.heap) r.links s8.graph
  let s9 : SurvSt F G := { s8 with sp := { s8.sp with params := o3 }, graph := gr }
  have k12 : onGraph (buildGraph e.frames y s8.heap) { s8 with sp := { s8.sp with params := o3 } } =
      .ok () s9 := by
    unfold onGraph
    simp only [k11, s9]
  obtain ⟨pd', k13⟩ := p.dict s9
  obtain ⟨Q, k14⟩ := (C30_construction (popArgs y d m (List.replicate (countTrue m) true)
      (pick (pick ds m) (List.replicate (countTrue m) true)) rm pd')).2
    (by
      refine ⟨?_, ?_, ?_, ?_, ?_⟩
      · intro l hl
        simp only [popArgs, List.mem_cons, List.not_mem_nil, or_false, d, v] at hl ⊢
        rcases hl with rfl | rfl | rfl | rfl | rfl | rfl <;> omega
      · intro q hq
        simp only [popArgs, Option.some.injEq, d] at hq ⊢
        rw [← hq, y3, l7]
      · simp only [popArgs]
        obtain ⟨-, -, -, -, -, -, -, i1, i2, i3⟩ := C09_index_partition (List.replicate (countTrue m) true)
        rw [hkl, i1, ← countTrue_eq]
        have : (List.replicate (countTrue m) true).length = countTrue m := by simp
        rw [i3] at i2
        rw [this] at i2
        exact i2
      · intro q hq
        simp only [popArgs, Option.some.injEq, d] at hq ⊢
        subst hq
        rw [x2, l7]
        exact r.good
      · intro _ k v hkv
        exact p.spaces (k, v) hkv)
  have pk := mkPopulation_ok k14
  have hb : BuildRun e y d s7 Q s9 :=
    ⟨s8, _, m, _, _, _, rm, pd', hgm, k9, hdm, hsel, hknown, hlog, k10, k12, k13, k14⟩
  have hQs : Q.selection = m := pk.rest.2.2.2.1
  refine ⟨Q, s9, ?_, rfl, hQs, ?_, by rw [hQs]; exact pk.distances, by rw [hQs]; exact pk.theta,
    by rw [hQs]; exact pk.phi, by rw [hQs]; exact pk.luminosities, by rw [hQs]; exact pk.fluxes,
    by rw [hQs]; exact pk.counts.2.1, ?_⟩
  · unfold drawSurvey
    rw [bind_of_ok hall.returns]
    exact hb.returns
  · have hx := pk.aux
    simp only [popArgs, d, x2, auxAttrs] at hx
    rw [hQs]
    exact ((addAttrs_ok_iff _ _ _ _ _ _).1 hx).2.2
  · rw [pk.counts.2.2.1, hQs]
    show m.length - _ = _
    rw [l7]
    rfl

end Popsynth
