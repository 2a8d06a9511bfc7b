import Verif.Props.SurveyState
import Verif.Props.SurveyNoise
import Verif.Props.Cosmology

/-!
# C60: where the quantities of a survey come from, and C22 (finite fluxes)

The positions are the ones the spatial distribution drew, the luminosities are the ones
the luminosity distribution drew or the derived sampler computed, and the latent fluxes
are the transformation of these luminosities at these distances.
-/

set_option autoImplicit false
set_option linter.unusedSectionVars false

namespace Popsynth
open Spec
variable {F G : Type} [LE F] [DecidableLE F] [OfNat F 0] [OfNat F 1]

/-! ### Frames -/

omit [LE F] [DecidableLE F] [OfNat F 0] [OfNat F 1] in
theorem reseed_ok {e : SurveyEnv F G} {k : Int} {s s' : SurvSt F G} {u : Unit}
    (h : reseed e k s = .ok u s') : e.seed k s.heap.rng = .ok s'.heap.rng := by
  obtain ⟨k1, -⟩ := onRng_ok h
  cases hs : e.seed k s.heap.rng with
  | ok g => rw [hs] at k1; simp only [Prod.mk.injEq, true_and] at k1; rw [k1]
  | error er => rw [hs] at k1; simp at k1

omit [LE F] [DecidableLE F] [OfNat F 0] [OfNat F 1] in
theorem countObjects_frame {e : SurveyEnv F G} {ns : Option Nat} {nz : Bool} {s s' : SurvSt F G}
    {n : Nat} (h : countObjects e ns nz s = .ok n s') :
    s'.lum = s.lum ∧ (∀ k, ns = some k → s' = s ∧ n = k) ∧
    (ns = none → ∃ N o, e.spatial.count nz s.sp.params = .ok N o ∧
      s'.sp = { s.sp with params := o } ∧ e.poisson N s.heap.rng = (.ok n, s'.heap.rng)) := by
  unfold countObjects at h
  cases ns with
  | some k =>
    simp only [pure_apply, EStateM.Result.ok.injEq] at h
    obtain ⟨rfl, rfl⟩ := h
    exact ⟨rfl, fun _ hk => ⟨rfl, by cases hk; rfl⟩, fun hk => by cases hk⟩
  | none =>
    rw [bind_ok_iff] at h
    obtain ⟨N, s1, h1, h2⟩ := h
    obtain ⟨m1, m2⟩ := onSpatial_ok h1
    obtain ⟨m3, m4⟩ := onRng_ok h2
    have hl : s1.lum = s.lum := congrArg (·.lum) m2
    have hl' : s'.lum = s1.lum := congrArg (·.lum) m4
    refine ⟨hl'.trans hl, ⟨fun k (hk : none = some k) => (nomatch hk), fun _ => ?_⟩⟩
    unfold onParams at m1
    simp only at m1
    cases hc : e.spatial.count nz s.sp.params with
    | error er o => rw [hc] at m1; cases m1
    | ok N' o =>
      rw [hc] at m1
      simp only [EStateM.Result.ok.injEq, SpSt.mk.injEq] at m1
      obtain ⟨rfl, hsp, hrng⟩ := m1
      have hsp' : s'.sp = s1.sp := congrArg (·.sp) m4
      exact ⟨N', o, rfl, hsp'.trans hsp.symm, by rw [hrng]; exact m3⟩

omit [LE F] [DecidableLE F] [OfNat F 0] [OfNat F 1] in
theorem onParams_positions {α : Type} {m : Py (Obj F) α} {s s' : SurvSt F G} {x : α}
    (h : onSpatial (onParams m) s = .ok x s') :
    s'.sp.distances = s.sp.distances ∧ s'.sp.theta = s.sp.theta ∧ s'.sp.phi = s.sp.phi ∧
      ∃ o, m s.sp.params = .ok x o := by
  obtain ⟨h1, -⟩ := onSpatial_ok h
  unfold onParams at h1
  simp only at h1
  cases hm : m s.sp.params with
  | error er o => rw [hm] at h1; cases h1
  | ok y o =>
    rw [hm] at h1
    simp only [EStateM.Result.ok.injEq, SpSt.mk.injEq] at h1
    obtain ⟨rfl, hsp, -⟩ := h1
    rw [← hsp]
    exact ⟨rfl, rfl, rfl, o, rfl⟩

/-- After the positions were drawn nothing but reading `r_max` touches the spatial
distribution. -/
theorem SurveyRun.positions {e : SurveyEnv F G} {y : Synth F} {a : SurveyArgs F} {s s' : SurvSt F G}
    {P : Population F} (r : SurveyRun e y a s P s') : r.s7.sp = r.all.s3.sp ∧
    r.build.s8.sp = r.s7.sp := by
  have h34 : r.all.s4.sp = r.all.s3.sp := by
    rcases drawLuminosities_ok r.all.lumd with ⟨d, -, ⟨q⟩⟩ | ⟨name, -, -, ⟨q⟩⟩
    · rw [q.frame]
    · have h1 := congrArg (·.sp) (onLum_ok q.drawn).2
      have h2 := congrArg (·.sp) (onLum_ok q.probd).2
      exact h2.trans h1
  have h45 : r.all.s5.sp = r.all.s4.sp := by
    refine foldPy_ok_induct (fun _ t => t.sp = r.all.s4.sp) rfl ?_ r.all.auxd
    intro x _ b1 t1 b2 t2 h1 h2
    obtain ⟨q⟩ := auxStep_ok h2
    have := congrArg (·.sp) q.frame
    exact this.trans h1
  have h56 : r.all.s6.sp = r.all.s5.sp := by
    rw [observeFlux_rng r.all.observed]
  exact ⟨by rw [r.all.frame7.2.2.2.1, h56, h45, h34], (selectOn_ok r.build.distd).rest.1⟩

/-! ### C60 -/

/-- What a completed survey did to place its `n` objects: the generator was seeded with
the synth's seed, the number of objects was given or Poisson distributed, then distances
and afterwards angles were drawn; `v` are the positions the spatial distribution held. -/
structure Spec.Placed (e : SurveyEnv F G) (y : Synth F) (a : SurveyArgs F) (s : SurvSt F G)
    (n : Nat) (v : Spatial F) (sp' : Spat F) : Prop where
  run : ∃ (g0 g1 : G) (sp0 : Spat F) (t1 t2 : SpSt F G),
    e.seed y.seed s.heap.rng = .ok g0 ∧
    ((a.nSamples = some n ∧ sp0 = s.sp ∧ g1 = g0) ∨
      (a.nSamples = none ∧ ∃ N o, e.spatial.count a.normalize s.sp.params = .ok N o ∧
        sp0 = { s.sp with params := o } ∧ e.poisson N g0 = (.ok n, g1))) ∧
    e.spatial.drawDistance n a.normalize { sp := sp0, rng := g1 } = .ok () t1 ∧
    e.spatial.drawSky n t1 = .ok () t2 ∧
    t2.sp.distances = some v.distance ∧ t2.sp.theta = some v.theta ∧ t2.sp.phi = some v.phi
  held : sp'.distances = some v.distance ∧ sp'.theta = some v.theta ∧ sp'.phi = some v.phi

/-- **C60 (positions).** The population's distances and angles, observed and latent, are
exactly what the configured spatial distribution drew for these objects, starting from
the synth's seed, and what its properties still return after the survey. -/
theorem C60_positions (e : SurveyEnv F G) (y : Synth F) (a : SurveyArgs F) (s s' : SurvSt F G)
    (P : Population F) (hk : drawSurvey e y a s = .ok P s') :
    P.distances.obs = P.distances.latent ∧ P.theta.obs = P.theta.latent ∧
    P.phi.obs = P.phi.latent ∧
    Placed e y a s P.selection.length
      { distance := P.distances.latent, theta := P.theta.latent, phi := P.phi.latent } s'.sp := by
  obtain ⟨r⟩ := drawSurvey_ok hk
  have pk := mkPopulation_ok r.build.built
  have hsel : P.selection = r.build.gm := pk.rest.2.2.2.1
  have hn : P.selection.length = r.d.n := by rw [hsel, r.gm_length]
  obtain ⟨q⟩ := drawPositions_ok r.all.placed
  obtain ⟨c1, c2, c3⟩ := countObjects_frame r.all.counted
  have hsp1 : r.all.s1.sp = s.sp := congrArg (·.sp) (onRng_ok r.all.seeded).2
  obtain ⟨d1, d2⟩ := onSpatial_ok q.dist
  obtain ⟨k1, k2⟩ := onSpatial_ok q.sky
  rw [pk.distances, pk.theta, pk.phi, hn]
  refine ⟨rfl, rfl, rfl, ⟨⟨_, _, _, _, _, reseed_ok r.all.seeded, ?_, d1, k1, q.hd, q.ht, q.hp⟩, ?_⟩⟩
  · cases hs : a.nSamples with
    | some k =>
      obtain ⟨h1, h2⟩ := c2 k hs
      exact .inl ⟨by rw [h2], by rw [h1, hsp1], by rw [h1]⟩
    | none =>
      obtain ⟨N, o, h1, h2, h3⟩ := c3 hs
      exact .inr ⟨rfl, N, o, by rw [← hsp1]; exact h1, by rw [h2, hsp1], h3⟩
  · obtain ⟨p1, p2⟩ := r.positions
    obtain ⟨m1, m2, m3, -⟩ := onParams_positions r.build.rmax
    have hg : s'.sp = r.build.s9.sp := congrArg (·.sp) (onGraph_ok r.build.graphed).2
    rw [hg, m1, m2, m3, p2, p1]
    exact ⟨q.hd, q.ht, q.hp⟩

/-- **C60 (luminosities, no derived sampler).** The luminosities, observed and latent,
are what the configured luminosity distribution drew for these objects right after the
positions. -/
theorem C60_luminosities (e : SurveyEnv F G) (y : Synth F) (a : SurveyArgs F) (s s' : SurvSt F G)
    (P : Population F) (hk : drawSurvey e y a s = .ok P s') (hd : y.derived = none) :
    P.luminosities.obs = P.luminosities.latent ∧ (∃ name, y.lumName = some name) ∧
    ∃ (g : G) (t : LumSt F G), e.lum.draw P.selection.length { lum := s.lum, rng := g } =
      .ok P.luminosities.latent t := by
  obtain ⟨r⟩ := drawSurvey_ok hk
  have pk := mkPopulation_ok r.build.built
  have hsel : P.selection = r.build.gm := pk.rest.2.2.2.1
  have hn : P.selection.length = r.d.n := by rw [hsel, r.gm_length]
  rw [pk.luminosities, hn]
  refine ⟨rfl, ?_⟩
  rcases drawLuminosities_ok r.all.lumd with ⟨d, h1, -⟩ | ⟨name, -, hl, ⟨q⟩⟩
  · rw [hd] at h1; cases h1
  · refine ⟨⟨name, hl⟩, ?_⟩
    obtain ⟨k1, -⟩ := onLum_ok q.drawn
    obtain ⟨p⟩ := drawPositions_ok r.all.placed
    have h1 : r.all.s1.lum = s.lum := congrArg (·.lum) (onRng_ok r.all.seeded).2
    have h2 := (countObjects_frame r.all.counted).1
    have h3 : p.s1.lum = r.all.s2.lum := congrArg (·.lum) (onSpatial_ok p.dist).2
    have h4 : r.all.s3.lum = p.s1.lum := congrArg (·.lum) (onSpatial_ok p.sky).2
    rw [h4, h3, h2, h1] at k1
    exact ⟨_, _, k1⟩

/-- **C60 (luminosities, derived sampler).** The luminosities are what the attached
derived sampler computed from its values, the positions of this population and the values
of its secondaries, which are the values this population reports. -/
theorem C60_derived_luminosities (e : SurveyEnv F G) (y : Synth F) (a : SurveyArgs F)
    (s s' : SurvSt F G) (P : Population F) (hk : drawSurvey e y a s = .ok P s')
    (hw : WellFormed y.roots s.heap) (hd : DownClosed s.heap.children s.heap.sampled)
    (d : Nat) (hder : y.derived = some d) :
    P.luminosities.obs = P.luminosities.latent ∧
    ∃ w : SView F, (e.world.code d).luminosity w = .ok P.luminosities.latent ∧
      w.trueVals = (s'.heap.samplers d).trueVals ∧ w.obsVals = (s'.heap.samplers d).obsVals ∧
      w.params = (s'.heap.samplers d).params ∧
      w.secs = ((s.heap.samplers d).secondaries.map fun p =>
        (p.1, ((s'.heap.samplers p.2).trueVals, (s'.heap.samplers p.2).obsVals))) ∧
      (∃ t, w.trueVals = some t ∧ t.length = P.selection.length) ∧
      (∃ o, w.obsVals = some o ∧ o.length = P.selection.length) := by
  obtain ⟨r⟩ := drawSurvey_ok hk
  have pk := mkPopulation_ok r.build.built
  have hsel : P.selection = r.build.gm := pk.rest.2.2.2.1
  have hn : P.selection.length = r.d.n := by rw [hsel, r.gm_length]
  rw [pk.luminosities, hn]
  refine ⟨rfl, ?_⟩
  rcases drawLuminosities_ok r.all.lumd with ⟨d', h1, ⟨q⟩⟩ | ⟨name, h1, -, -⟩
  swap
  · rw [hder] at h1; cases h1
  rw [hder] at h1; cases h1
  have p3 : Prepared s.heap r.all.s3.heap := r.all.heap3.prepared
  have p6 : Prepared r.all.s5.heap r.all.s6.heap := r.all.heap6.prepared
  have hw3 := hw.of_ident p3.ident
  have hd3 : DownClosed r.all.s3.heap.children r.all.s3.heap.sampled := by
    rw [p3.children, p3.sampled]; exact hd
  obtain ⟨-, -, q3, q4, ⟨T0, q5, q6⟩, q7⟩ := q.eff
    (hw3.sub (by intro i hi; simp [Synth.roots, hder] at hi ⊢; exact .inl hi)) hd3 rfl
  have id4 : ∀ j, (r.all.s4.heap.samplers j).ident = (s.heap.samplers j).ident := fun j =>
    (q5.ident j).trans (p3.ident j)
  have hw4 : WellFormed ([d] ++ y.aux.map Prod.snd) r.all.s4.heap := by
    have := hw.of_ident id4
    rwa [Synth.roots, hder] at this
  obtain ⟨b1, b2, b3, ⟨T1, b4, b5, b6, b7⟩, b8, b9⟩ := auxFold_eff y.aux [d]
    r.all.loc1 r.d.loc r.all.s4 r.all.s5 r.all.auxd hw4 q3
    (by intro i hi; rw [List.mem_singleton] at hi; subst hi; exact q4) q7
  have keep : ∀ j, r.all.s4.heap.sampled j = true →
      (s'.heap.samplers j).trueVals = (r.all.s4.heap.samplers j).trueVals ∧
      (s'.heap.samplers j).obsVals = (r.all.s4.heap.samplers j).obsVals ∧
      (s'.heap.samplers j).params = (r.all.s4.heap.samplers j).params := by
    intro j hj
    have hnot : j ∉ T1.map Prod.fst := by
      intro hm
      obtain ⟨x, hx, rfl⟩ := List.mem_map.1 hm
      have := b4.fresh x hx
      rw [Heap.sampled] at hj
      rw [hj] at this; cases this
    have k1 := b4.keep j hnot
    rw [r.samplers.1]
    have k2 := (SEff.of_prepared (w := e.world) (n := r.d.n) (v := r.d.pos) p6).keep j (by simp)
    exact ⟨k2.1.trans k1.1, k2.2.1.trans k1.2.1, k2.2.2.1.trans k1.2.2.1⟩
  obtain ⟨kd1, kd2, kd3⟩ := keep d q4
  refine ⟨_, q.lum, kd1.symm, kd2.symm, kd3.symm, ?_, ?_, ?_⟩
  · simp only [Heap.view, ident_secondaries (id4 d)]
    refine List.map_congr_left fun p hp => ?_
    have hsub : r.all.s4.heap.sampled p.2 = true :=
      q3 d q4 p.2 (by
        simp only [Heap.children, ident_secondaries (id4 d)]
        exact List.mem_map.2 ⟨p, hp, rfl⟩)
    obtain ⟨c1, c2, -⟩ := keep p.2 hsub
    rw [c1, c2]
  · have := q.lenTrue
    simp only [Heap.view]
    cases ht : (r.all.s4.heap.samplers d).trueVals with
    | none => rw [ht] at this; cases this
    | some t => rw [ht] at this; exact ⟨t, rfl, by simpa [lenIs] using this⟩
  · have := q.lenObs
    simp only [Heap.view]
    cases ht : (r.all.s4.heap.samplers d).obsVals with
    | none => rw [ht] at this; cases this
    | some t => rw [ht] at this; exact ⟨t, rfl, by simpa [lenIs] using this⟩

namespace SurveyExample

/-- The survey whose derived luminosity sampler is `"b"`, which depends on `"d"`. -/
def derivedB : Synth Nat := { synth with aux := [], derived := some 1 }

def derivedBEnd : SurvSt Nat Nat := endState (drawSurvey derivedEnv derivedB args st)

theorem wellFormedB : WellFormed derivedB.roots st.heap := by
  have hr : ∀ i ∈ derivedB.roots, ∀ j, Reach st.heap.children i j → Reach st.heap.children 0 j := by
    intro i hi j h
    have hroots : derivedB.roots = [1] := rfl
    rw [hroots, List.mem_singleton] at hi; subst hi
    exact .step (c := 1) (by decide) h
  have h0 : (0 : Nat) ∈ synth.roots := by decide
  refine ⟨?_, wellFormed.wired, ?_, ?_⟩
  · intro i _
    have hch : st.heap.children = SamplerExample.heap.children := rfl
    rw [hch]; exact (SamplerExample.ranked i).acyclic
  · exact fun i hi j hj => wellFormed.names 0 h0 j (hr i hi j hj)
  · exact fun a ha b hb i j hi hj => wellFormed.inj 0 h0 0 h0 i j (hr a ha i hi) (hr b hb j hj)

example : ∃ P w, drawSurvey derivedEnv derivedB args st = .ok P derivedBEnd ∧
    (derivedEnv.world.code 1).luminosity w = .ok P.luminosities.latent ∧
    w.trueVals = (derivedBEnd.heap.samplers 1).trueVals ∧
    w.secs = [("d", ((derivedBEnd.heap.samplers 3).trueVals, (derivedBEnd.heap.samplers 3).obsVals))] := by
  obtain ⟨P, hP⟩ : ∃ P, drawSurvey derivedEnv derivedB args st = .ok P derivedBEnd :=
    exists_ok_of_isOk (by decide +kernel)
  generalize derivedBEnd = fin at hP ⊢
  obtain ⟨-, w, h1, h2, -, -, h3, -⟩ :=
    C60_derived_luminosities _ _ _ _ _ P hP wellFormedB downClosed 1 rfl
  exact ⟨P, w, hP, h1, h2, h3⟩

end SurveyExample

/-- **C60 (fluxes).** The latent fluxes are the spatial distribution's transformation of
the population's latent luminosities at its latent distances. -/
theorem C60_fluxes (e : SurveyEnv F G) (y : Synth F) (a : SurveyArgs F) (s s' : SurvSt F G)
    (P : Population F) (hk : drawSurvey e y a s = .ok P s') :
    e.spatial.transform P.luminosities.latent P.distances.latent = .ok P.fluxes.latent := by
  obtain ⟨r⟩ := drawSurvey_ok hk
  have pk := mkPopulation_ok r.build.built
  rw [pk.luminosities, pk.distances, pk.fluxes]
  exact r.all.transformed

/-- **C60 (known distances).** The selection of known distances is drawn, with the user's
settings, for exactly the detected objects. -/
theorem C60_distance_mask (e : SurveyEnv F G) (y : Synth F) (a : SurveyArgs F) (s s' : SurvSt F G)
    (P : Population F) (hk : drawSurvey e y a s = .ok P s') (hw : WellFormed y.roots s.heap)
    (hd : DownClosed s.heap.children s.heap.sampled) (ho : OwnSelectors y s.heap)
    (hf : (s.heap.selectors y.distSel).isSampled = false) :
    MaskDrawn e.world P.nDetections (s.heap.selectors y.distSel) (s'.heap.selectors y.distSel) := by
  obtain ⟨r⟩ := drawSurvey_ok hk
  obtain ⟨T, ef⟩ := surveyEff r hw hd
  have pk := mkPopulation_ok r.build.built
  have h7 : r.s7.heap.selectors y.distSel = s.heap.selectors y.distSel := by
    rw [r.all.frame7.2.2.1 _ ho.fluxDist.symm ho.distSpat]
    refine ef.eff.selKeep _ fun x hx => ?_
    exact ho.dist _ ((ef.drawn x.1).1 (List.mem_map.2 ⟨x, hx, rfl⟩)).1
  have f := selectOn_ok r.build.distd
  obtain ⟨t, t1, t2⟩ := f.drawn (by rw [h7]; exact hf)
  rw [h7] at t1
  rw [pk.counts.2.1, r.build.frame.2.2.2.1]
  exact ⟨_, t, t1, by rw [t2]⟩

/-- The example survey: distances 1, 2, 3, luminosities 2, 3, 4, fluxes their products. -/
example : ∃ P, drawSurvey SurveyExample.env SurveyExample.synth SurveyExample.args SurveyExample.st
      = .ok P SurveyExample.final ∧ P.distances.latent = [1, 2, 3] ∧
    P.luminosities.latent = [2, 3, 4] ∧ P.fluxes.latent = [2, 6, 12] ∧
    SurveyExample.final.sp.distances = some [1, 2, 3] := by
  obtain ⟨P, hP⟩ := SurveyExample.survey_ok
  have h3 : (okVal (drawSurvey SurveyExample.env SurveyExample.synth SurveyExample.args
      SurveyExample.st)).map (fun P => (P.distances.latent, P.luminosities.latent))
      = some ([1, 2, 3], [2, 3, 4]) := by decide +kernel
  rw [(okVal_ok hP).1] at h3
  simp only [Option.map_some, Option.some.injEq, Prod.mk.injEq] at h3
  have h4 := C60_fluxes _ _ _ _ _ _ hP
  have h5 := (C60_positions _ _ _ _ _ _ hP).2.2.2.held.1
  generalize SurveyExample.final = fin at hP h5 ⊢
  rw [h3.1, h3.2] at h4
  rw [h3.1] at h5
  refine ⟨P, hP, h3.1, h3.2, ?_, h5⟩
  have : SurveyExample.env.spatial.transform [2, 3, 4] [1, 2, 3] = .ok [2, 6, 12] := rfl
  rw [this] at h4
  exact (Except.ok.inj h4).symm

/-- **C22 (finite).** With noise, the logarithm of every observed flux is finite: the
survey is refused as soon as one is not. -/
theorem C22_finite (e : SurveyEnv F G) (y : Synth F) (a : SurveyArgs F) (s s' : SurvSt F G)
    (P : Population F) (hk : drawSurvey e y a s = .ok P s') (hw : WellFormed y.roots s.heap)
    (hd : DownClosed s.heap.children s.heap.sampled) (sigma : F) (hs : a.fluxSigma = some sigma)
    (hu : (s.heap.selectors y.fluxSel).kind.isUnity = false) (i : Nat) (f : F)
    (hi : P.fluxes.obs[i]? = some f) :
    ∃ x, e.isFinite x = true ∧ f = if a.log10Draw then e.pow10 x else e.exp x := by
  obtain ⟨r⟩ := drawSurvey_ok hk
  obtain ⟨T, ef⟩ := surveyEff r hw hd
  have pk := mkPopulation_ok r.build.built
  rcases observeFlux_ok r.all.observed with ⟨sg, -, -, -, ⟨-, -, l, -, h6, h7⟩, -⟩ | ⟨h1, -⟩
  · rw [pk.fluxes] at hi
    simp only [popArgs] at hi
    rw [h7] at hi
    obtain ⟨x, hx, rfl⟩ := List.mem_map.1 (List.mem_of_getElem? hi)
    refine ⟨x, List.all_eq_true.1 h6 x hx, ?_⟩
    cases a.log10Draw <;> simp
  · rcases h1 with h1 | h1
    · rw [ef.kind, hu] at h1; cases h1
    · rw [hs] at h1; cases h1

/-- With noise 1 the example returns the observed fluxes 3, 8, 12; if values above 11 count as
infinite, the same survey is refused. -/
example : outcome (drawSurvey { SurveyExample.env with isFinite := fun x => x ≤ 11 }
      SurveyExample.synth { fluxSigma := some 1 } SurveyExample.st) = .error .assertion ∧
    (okVal (drawSurvey { SurveyExample.env with isFinite := fun x => x ≤ 12 }
      SurveyExample.synth { fluxSigma := some 1 } SurveyExample.st)).map (·.fluxes.obs) =
      some [3, 8, 12] :=
  ⟨outcome_of_errVal (by decide +kernel), by decide +kernel⟩

/-- An array transformation that applies `flux` to each luminosity and distance. -/
def Spec.AppliesFlux (flux : F → F → Option F) (tr : List F → List F → Except Err (List F)) : Prop :=
  ∀ L r out, L.length = r.length → tr L r = .ok out → out.length = L.length ∧
    ∀ (i : Nat) (l d x : F), L[i]? = some l → r[i]? = some d → out[i]? = some x → flux l d = some x

/-- A survey of standard candles of luminosity `L` at distances in `near` that returned `P`:
no auxiliary samplers, no flux noise, no spatial selection, and a fresh hard flux selection
at `limit`. -/
structure Spec.CandleSurvey (flux : F → F → Option F) (near : F → Prop) (L limit : F)
    (e : SurveyEnv F G) (y : Synth F) (a : SurveyArgs F) (s s' : SurvSt F G)
    (P : Population F) : Prop where
  returned : drawSurvey e y a s = .ok P s'
  aux : y.aux = []
  derived : y.derived = none
  spat : y.spatSel = none
  roles : y.fluxSel ≠ y.distSel
  fresh : (s.heap.selectors y.fluxSel).isSampled = false
  wired : ∀ j, (s.heap.samplers j).hasSecondary = false → (s.heap.samplers j).secondaries = []
  closed : DownClosed s.heap.children s.heap.sampled
  noise : a.fluxSigma = none
  kind : (s.heap.selectors y.fluxSel).kind = .lower
  flag : (s.heap.selectors y.fluxSel).data.useFlux = true
  boundary : outcome (paramGet (declBoundary : ParamDecl F) "boundary"
      (s.heap.selectors y.fluxSel).params) = .ok limit
  transform : AppliesFlux flux e.spatial.transform
  distances : ∀ d ∈ P.distances.latent, near d
  luminosities : ∀ l ∈ P.luminosities.latent, l = L

theorem Spec.CandleSurvey.detected_iff {flux : F → F → Option F} {near : F → Prop} {L limit : F}
    {e : SurveyEnv F G} {y : Synth F} {a : SurveyArgs F} {s s' : SurvSt F G} {P : Population F}
    (c : CandleSurvey flux near L limit e y a s s' P) (horizon : F)
    (hhor : ∀ r, near r → ∃ v, flux L r = some v ∧ (limit ≤ v ↔ r ≤ horizon))
    (i : Nat) (d : F) (hi : P.distances.obs[i]? = some d) :
    P.selection[i]? = some true ↔ d ≤ horizon := by
  obtain ⟨hk, haux, hder, hspat, hsel, hfresh, hwired, hclosed, hnoise, hkind, hflag, hb, htr,
    hdist, hlum⟩ := c
  have hroots : y.roots = [] := by simp [Synth.roots, haux, hder]
  have hno : ∀ j, ¬ ReachFrom s.heap y.roots j := by
    rintro j ⟨k, hk, -⟩; rw [hroots] at hk; cases hk
  have hw : WellFormed y.roots s.heap := by
    refine ⟨?_, hwired, ?_, ?_⟩
    · intro k hk; rw [hroots] at hk; cases hk
    · intro k hk; rw [hroots] at hk; cases hk
    · intro k hk; rw [hroots] at hk; cases hk
  have ho : OwnSelectors y s.heap :=
    ⟨fun k _ hk => absurd hk (hno k), fun k hk => absurd hk (hno k), fun k hk => absurd hk (hno k),
      fun k hk => absurd hk (hno k), hsel, by rw [hspat]; simp, by rw [hspat]; simp⟩
  have hf : Fresh y s.heap := ⟨fun k hk => absurd hk (hno k), hfresh, by rw [hspat]; simp⟩
  obtain ⟨n, hl, -⟩ := C18_lengths e y a s s' P hk
  have hpos := (C60_positions e y a s s' P hk).1
  have hd := (hl.2.1 P.distances (by simp)).2.1
  have hlm := (hl.2.1 P.luminosities (by simp)).2.1
  have hfl := (hl.2.1 P.fluxes (by simp)).2.1
  have hobs := (C22_no_sigma e y a s s' P hk hnoise).1
  rw [hpos] at hi
  obtain ⟨hi2, hget⟩ := List.getElem?_eq_some_iff.1 hi
  have hin : i < n := by omega
  have hi1 : i < P.luminosities.latent.length := by omega
  have hi3 : i < P.fluxes.latent.length := by omega
  have hval := (htr _ _ _ (by rw [hlm, hd]) (C60_fluxes e y a s s' P hk)).2 i
    P.luminosities.latent[i] d P.fluxes.latent[i] (by simp [hi1]) hi (by simp [hi3])
  rw [hlum _ (List.getElem_mem hi1)] at hval
  obtain ⟨v, hv, hvi⟩ := hhor d (hdist d (List.mem_of_getElem? hi))
  rw [hv] at hval
  injection hval with hval
  obtain ⟨k1, ⟨c0, ⟨g, t, k2, k3⟩, ⟨k4, k5, k6, -⟩, k7⟩, -⟩ :=
    C19_selected_iff e y a s s' P hk hw hclosed ho hf
  obtain ⟨t', m', d1, d2, d3, -⟩ := C05_lower e.world.sel e.world.half e.world.ninety
    e.world.showProgress { sel := c0, rng := g } P.selection.length P.fluxes.obs limit
    (k4.trans hkind) (by simp [source, k6, hflag, k7]) (by simp only [k5]; exact hb)
  rw [d1] at k2; cases k2
  have hpn : i < P.selection.length := by rw [hl.1]; exact hin
  have key := k1 i P.selection[i] (by simp [hpn])
  have hio : i < P.fluxes.obs.length := by rw [hobs]; exact hi3
  have him : i < m'.length := by rw [d3.1]; exact hio
  have hmask : MaskSelects (s'.heap.selectors y.fluxSel) i ↔ limit ≤ v := by
    have hx : P.fluxes.obs[i] = v := by simp only [hobs]; exact hval.symm
    rw [← hx]
    unfold MaskSelects
    rw [k3, d2]
    have hb' : bget m' i = some m'[i] := by
      rw [bget_of_length (d3.1.trans (by rw [hobs, hfl])) hin]; simp [him]
    constructor
    · rintro ⟨m, hm, hbm⟩
      cases hm
      rw [hb'] at hbm
      exact (d3.2 i him hio).1 (by injection hbm)
    · intro hle
      exact ⟨m', rfl, by rw [hb', (d3.2 i him hio).2 hle]⟩
  have hg : P.selection[i]? = some P.selection[i] := by simp [hpn]
  rw [hg, ← hvi, ← hmask]
  simp only [Option.some.injEq]
  rw [key]
  constructor
  · exact fun h => h.1
  · exact fun h => ⟨h, ⟨fun p hp => (by rw [hspat] at hp; cases hp), fun j hj => absurd hj (hno j)⟩⟩

/-- Candles of luminosity 12 with flux `12 / d` and a limit of 5: objects at distances 1 and 2
are detected, the one at 3 is not; the horizon is 2. -/
def SurveyExample.candleEnv : SurveyEnv Nat Nat :=
  { SurveyExample.env with
    spatial := { SurveyExample.spatial with
      transform := fun l d => .ok (List.zipWith (fun l d => l / d) l d) }
    lum := { SurveyExample.lum with draw := fun n => pure (List.replicate n 12) } }

def SurveyExample.candleSynth : Synth Nat := { SurveyExample.synth with aux := [] }

def SurveyExample.limitFive : Selector Nat Nat :=
  { kind := .lower, cls := "HardFluxSelection", params := { storage := [("boundary", some 5)] },
    data := { useFlux := true } }

def SurveyExample.candleSt : SurvSt Nat Nat :=
  { SurveyExample.st with heap := { SurveyExample.heap with selectors := fun q =>
      if q = 10 then limitFive else SurveyExample.heap.selectors q } }

def SurveyExample.candleEnd : SurvSt Nat Nat :=
  endState (drawSurvey SurveyExample.candleEnv SurveyExample.candleSynth {} SurveyExample.candleSt)

open SurveyExample in
example : ∃ P, CandleSurvey (fun l d => some (l / d)) (fun d => 0 < d) 12 5 candleEnv candleSynth {}
      candleSt candleEnd P ∧ P.selection = [true, true, false] ∧
    ∀ r : Nat, 0 < r → ∃ v, some (12 / r) = some v ∧ (5 ≤ v ↔ r ≤ 2) := by
  obtain ⟨P, hP⟩ : ∃ P, drawSurvey candleEnv candleSynth {} candleSt = .ok P candleEnd :=
    exists_ok_of_isOk (by decide +kernel)
  have h3 : (okVal (drawSurvey candleEnv candleSynth {} candleSt)).map (fun P =>
      (P.distances.latent, P.luminosities.latent, P.selection))
      = some ([1, 2, 3], [12, 12, 12], [true, true, false]) := by decide +kernel
  rw [(okVal_ok hP).1] at h3
  simp only [Option.map_some, Option.some.injEq, Prod.mk.injEq] at h3
  refine ⟨P, ⟨hP, rfl, rfl, rfl, by decide, by decide, ?_, ?_, rfl, rfl, rfl,
    by decide +kernel, ?_, ?_, ?_⟩, h3.2.2, ?_⟩
  · exact wellFormed.wired
  · exact downClosed
  · intro L r out hl ho
    have ho : Except.ok (List.zipWith (fun l d => l / d) L r) = (Except.ok out : Except Err _) := ho
    have ho := Except.ok.inj ho
    subst ho
    refine ⟨by simp [hl], ?_⟩
    intro i l d x h1 h2 h3
    rw [List.getElem?_zipWith, h1, h2] at h3
    exact h3
  · rw [h3.1]; decide
  · rw [h3.2.1]; decide
  · intro r hr
    refine ⟨_, rfl, ?_⟩
    rw [Nat.le_div_iff_mul_le hr]
    omega

/-! ### C60 over the reals -/

section
omit [LE F] [DecidableLE F] [OfNat F 0] [OfNat F 1]
variable [DecidableLE ℝ]

/-- **C60 (positive fluxes).** If the transformation falls with distance on the distances
drawn and all luminosities are positive, all latent and all observed fluxes are positive. -/
theorem C60_positive_fluxes (e : SurveyEnv ℝ G) (y : Synth ℝ) (a : SurveyArgs ℝ)
    (s s' : SurvSt ℝ G) (P : Population ℝ) (hk : drawSurvey e y a s = .ok P s')
    (flux : ℝ → ℝ → Option ℝ) (near : Set ℝ) (htr : AppliesFlux flux e.spatial.transform)
    (hfall : FallsWithDistance flux near) (hdist : ∀ d ∈ P.distances.latent, d ∈ near)
    (hlum : ∀ l ∈ P.luminosities.latent, 0 < l)
    (h10 : ∀ x, e.pow10 x = (10 : ℝ) ^ x) (hexp : ∀ x, e.exp x = Real.exp x) :
    (∀ f ∈ P.fluxes.latent, 0 < f) ∧ ∀ f ∈ P.fluxes.obs, 0 < f := by
  obtain ⟨n, hl, -⟩ := C18_lengths e y a s s' P hk
  have hd := (hl.2.1 P.distances (by simp)).2.1
  have hlm := (hl.2.1 P.luminosities (by simp)).2.1
  have hf := (hl.2.1 P.fluxes (by simp)).2.1
  have hpos : ∀ f ∈ P.fluxes.latent, 0 < f := by
    intro f hm
    obtain ⟨i, hi, rfl⟩ := List.getElem_of_mem hm
    have hi1 : i < P.luminosities.latent.length := by omega
    have hi2 : i < P.distances.latent.length := by omega
    have := (htr _ _ _ (by rw [hlm, hd]) (C60_fluxes e y a s s' P hk)).2 i
      P.luminosities.latent[i] P.distances.latent[i] P.fluxes.latent[i] (by simp [hi1]) (by simp [hi2])
      (by simp [hi])
    obtain ⟨v, hv, he⟩ := hfall.positive _ (hlum _ (List.getElem_mem hi1)) _ (hdist _ (List.getElem_mem hi2))
    rw [he] at this
    injection this with this
    rw [← this]; exact hv
  exact ⟨hpos, C22_positive e y a s s' P hk h10 hexp hpos⟩

/-- **C60 (horizon).** For each luminosity and flux limit there is one distance such that
every survey of standard candles with that luminosity and limit detects all objects up to
that distance and none beyond. -/
theorem C60_horizon (flux : ℝ → ℝ → Option ℝ) (near : Set ℝ) (h : HasHorizon flux near)
    (L limit : ℝ) (hL : 0 < L) (hlimit : 0 < limit) : ∃ horizon : ℝ,
    ∀ (e : SurveyEnv ℝ G) (y : Synth ℝ) (a : SurveyArgs ℝ) (s s' : SurvSt ℝ G) (P : Population ℝ),
      CandleSurvey flux (· ∈ near) L limit e y a s s' P →
      ∀ (i : Nat) (d : ℝ), P.distances.obs[i]? = some d →
        (P.selection[i]? = some true ↔ d ≤ horizon) := by
  obtain ⟨hor, hh⟩ := h L hL limit hlimit
  exact ⟨hor, fun e y a s s' P c => c.detected_iff hor hh⟩

end

end Popsynth
