import Verif.Model.Display
import Verif.Props.SimVar
import Verif.Props.Sky

/-!
# What plots and displays of a population show (C67)
-/

set_option autoImplicit false
set_option linter.unusedSectionVars false

namespace Popsynth

namespace Spec

/-- One simulated object. -/
structure Source (F : Type) where
  distance : F
  luminosity : F
  trueFlux : F
  obsFlux : F
  theta : F
  phi : F
  detected : Bool

variable {F : Type}

/-- The objects of a population, in order. -/
structure Catalog (P : Population F) (l : List (Source F)) : Prop where
  distances : P.distances.latent = l.map Source.distance ∧ P.distances.obs = l.map Source.distance
  luminosities : P.luminosities.latent = l.map Source.luminosity ∧
    P.luminosities.obs = l.map Source.luminosity
  trueFluxes : P.fluxes.latent = l.map Source.trueFlux
  obsFluxes : P.fluxes.obs = l.map Source.obsFlux
  theta : P.theta.latent = l.map Source.theta ∧ P.theta.obs = l.map Source.theta
  phi : P.phi.latent = l.map Source.phi ∧ P.phi.obs = l.map Source.phi
  detected : P.selection = l.map Source.detected
  masks : P.distances.selection = P.selection ∧ P.luminosities.selection = P.selection ∧
    P.fluxes.selection = P.selection ∧ P.theta.selection = P.selection ∧
    P.phi.selection = P.selection
  noDetection : P.noDetection = true ↔ ∀ s ∈ l, s.detected = false

/-- The detected ones. -/
def seen (l : List (Source F)) : List (Source F) := l.filter Source.detected

/-- The others. -/
def unseen (l : List (Source F)) : List (Source F) := l.filter fun s => !s.detected

end Spec

open Spec

section
variable {F : Type}

theorem entries_map {α : Type} (f : Source F → α) (l : List (Source F)) (b : Bool) :
    entries (l.map f) (l.map Source.detected) b =
      (l.filter fun s => s.detected == b).map f := by
  induction l with
  | nil => rfl
  | cons s l ih =>
    rw [List.map_cons, List.map_cons, entries_cons, ih, List.filter_cons]
    cases h : s.detected <;> cases b <;> simp

theorem filter_seen (l : List (Source F)) : (l.filter fun s => s.detected == true) = seen l := by
  unfold seen; congr 1; funext s; cases s.detected <;> rfl

theorem filter_unseen (l : List (Source F)) :
    (l.filter fun s => s.detected == false) = unseen l := by
  unfold unseen; congr 1; funext s; cases s.detected <;> rfl

/-- The sources of lists of one length. -/
def zipSources : List F → List F → List F → List F → List F → List F → List Bool → List (Source F)
  | d :: ds, l :: ls, t :: ts, o :: os, a :: as, p :: ps, b :: bs =>
    ⟨d, l, t, o, a, p, b⟩ :: zipSources ds ls ts os as ps bs
  | _, _, _, _, _, _, _ => []

theorem zipSources_maps (n : Nat) (d l t o a p : List F) (b : List Bool) (h1 : d.length = n)
    (h2 : l.length = n) (h3 : t.length = n) (h4 : o.length = n) (h5 : a.length = n)
    (h6 : p.length = n) (h7 : b.length = n) :
    d = (zipSources d l t o a p b).map Source.distance ∧
    l = (zipSources d l t o a p b).map Source.luminosity ∧
    t = (zipSources d l t o a p b).map Source.trueFlux ∧
    o = (zipSources d l t o a p b).map Source.obsFlux ∧
    a = (zipSources d l t o a p b).map Source.theta ∧
    p = (zipSources d l t o a p b).map Source.phi ∧
    b = (zipSources d l t o a p b).map Source.detected := by
  induction n generalizing d l t o a p b with
  | zero =>
    rw [List.length_eq_zero_iff] at h1 h2 h3 h4 h5 h6 h7
    subst h1 h2 h3 h4 h5 h6 h7
    simp [zipSources]
  | succ n ih =>
    obtain ⟨_, _, rfl⟩ := List.exists_cons_of_length_eq_add_one h1
    obtain ⟨_, _, rfl⟩ := List.exists_cons_of_length_eq_add_one h2
    obtain ⟨_, _, rfl⟩ := List.exists_cons_of_length_eq_add_one h3
    obtain ⟨_, _, rfl⟩ := List.exists_cons_of_length_eq_add_one h4
    obtain ⟨_, _, rfl⟩ := List.exists_cons_of_length_eq_add_one h5
    obtain ⟨_, _, rfl⟩ := List.exists_cons_of_length_eq_add_one h6
    obtain ⟨_, _, rfl⟩ := List.exists_cons_of_length_eq_add_one h7
    obtain ⟨e1, e2, e3, e4, e5, e6, e7⟩ := ih _ _ _ _ _ _ _ (Nat.succ.inj h1) (Nat.succ.inj h2)
      (Nat.succ.inj h3) (Nat.succ.inj h4) (Nat.succ.inj h5) (Nat.succ.inj h6) (Nat.succ.inj h7)
    simp only [zipSources, List.map_cons]
    refine ⟨?_, ?_, ?_, ?_, ?_, ?_, ?_⟩
    · rw [← e1]
    · rw [← e2]
    · rw [← e3]
    · rw [← e4]
    · rw [← e5]
    · rw [← e6]
    · rw [← e7]

theorem countTrue_eq_zero (m : List Bool) : countTrue m = 0 ↔ ∀ b ∈ m, b = false := by
  unfold countTrue
  induction m with
  | nil => simp
  | cons b m ih => cases b <;> simp [ih]

/-- **C67**: every population that was built has a catalogue, made of what it was given, and only
one. -/
theorem C67_catalog (a : PopArgs F) (P : Population F) (h : mkPopulation a = .ok P) :
    ∃ l, Catalog P l ∧ (a.distances = l.map Source.distance ∧
      a.luminosities = l.map Source.luminosity ∧ a.fluxes = l.map Source.trueFlux ∧
      a.fluxObs = l.map Source.obsFlux ∧ a.theta = l.map Source.theta ∧ a.phi = l.map Source.phi ∧
      a.selection = l.map Source.detected) ∧ ∀ l', Catalog P l' → l' = l := by
  have k := mkPopulation_ok h
  obtain ⟨e1, e2, e3, e4, e5, e6, e7⟩ := zipSources_maps a.selection.length a.distances
    a.luminosities a.fluxes a.fluxObs a.theta a.phi a.selection k.lenDist k.lenLum k.lenFluxes
    k.lenFluxObs k.lenTheta k.lenPhi rfl
  have hsel : P.selection = a.selection := k.rest.2.2.2.1
  refine ⟨zipSources a.distances a.luminosities a.fluxes a.fluxObs a.theta a.phi a.selection,
    ⟨?_, ?_, ?_, ?_, ?_, ?_, ?_, ?_, ?_⟩, ⟨e1, e2, e3, e4, e5, e6, e7⟩, ?_⟩
  · rw [k.distances]; exact ⟨e1, e1⟩
  · rw [k.luminosities]; exact ⟨e2, e2⟩
  · rw [k.fluxes]; exact e3
  · rw [k.fluxes]; exact e4
  · rw [k.theta]; exact ⟨e5, e5⟩
  · rw [k.phi]; exact ⟨e6, e6⟩
  · rw [hsel]; exact e7
  · rw [k.distances, k.luminosities, k.fluxes, k.theta, k.phi, hsel]
    exact ⟨rfl, rfl, rfl, rfl, rfl⟩
  · rw [k.counts.2.2.2, countTrue_eq_zero]
    constructor
    · intro hm s hs
      refine hm _ ?_
      rw [e7]
      exact List.mem_map_of_mem hs
    · intro hm b hb
      rw [e7] at hb
      obtain ⟨s, hs, rfl⟩ := List.mem_map.1 hb
      exact hm s hs
  · intro l' hl'
    have f1 := hl'.distances.1
    have f2 := hl'.luminosities.1
    have f3 := hl'.trueFluxes
    have f4 := hl'.obsFluxes
    have f5 := hl'.theta.1
    have f6 := hl'.phi.1
    have f7 := hl'.detected
    rw [k.distances] at f1
    rw [k.luminosities] at f2
    rw [k.fluxes] at f3 f4
    rw [k.theta] at f5
    rw [k.phi] at f6
    rw [hsel] at f7
    simp only at f1 f2 f3 f4 f5 f6
    rw [f1, f2, f3, f4, f5, f6, f7]
    clear * -
    induction l' with
    | nil => rfl
    | cons s l' ih => simp only [List.map_cons, zipSources]; rw [← ih]

/-- Catalogue parts of the simulated variables. -/
theorem catalog_split {P : Population F} {l : List (Source F)} {x : SimVar F}
    {f g : Source F → F} (ho : x.obs = l.map f) (hl : x.latent = l.map g)
    (hs : x.selection = P.selection) (hd : P.selection = l.map Source.detected) :
    (∃ y, (x.toSVar .float).selected = .ok y ∧ y.obs = (seen l).map f) ∧
    (∃ y, (x.toSVar .float).nonSelected = .ok y ∧ y.obs = (unseen l).map f) ∧
    ∃ y, (x.toSVar .float).getItem (.mask P.selection) = .ok (.var y) ∧ y.obs = (seen l).map f := by
  have hb : Built (x.toSVar .float) := by
    unfold Built SimVar.toSVar
    simp only [ho, hl, hs, hd, List.length_map, and_self]
  obtain ⟨y, z, h1, h2, -, -, h5, -, h7, -⟩ := C34_split _ hb rfl
  obtain ⟨w, k1, k2, -⟩ := C34_getitem_mask (x.toSVar .float) hb P.selection
    (by simp only [SimVar.toSVar, ho, hd, List.length_map])
  have e : (x.toSVar .float).sel = l.map Source.detected := by
    unfold SimVar.toSVar; simp only [hs, hd]
  have e' : (x.toSVar .float).obs = l.map f := ho
  rw [e, e', entries_map] at h5 h7
  rw [hd, e', entries_map] at k2
  rw [filter_seen] at h5 k2
  rw [filter_unseen] at h7
  exact ⟨⟨y, h1, h5⟩, ⟨z, h2, h7⟩, ⟨w, k1, k2⟩⟩

theorem seen_nil {l : List (Source F)} : seen l = [] ↔ ∀ s ∈ l, s.detected = false := by
  unfold seen
  rw [List.filter_eq_nil_iff]
  constructor
  · intro h s hs; cases hd : s.detected with
    | false => rfl
    | true => exact absurd hd (h s hs)
  · intro h s hs; rw [h s hs]; simp

theorem npMin_map (env : PlotEnv F) (l : List (Source F)) (f : Source F → F) (h : l ≠ []) :
    npMin env (l.map f) = .ok (env.min (l.map f)) := by
  unfold npMin
  cases l with
  | nil => exact absurd rfl h
  | cons => rfl

theorem lowestFlux_eq (env : PlotEnv F) {P : Population F} {l : List (Source F)}
    (h : Catalog P l) :
    lowestFlux env P = if seen l = [] then .error .value else
      .ok (env.min [env.min (l.map Source.obsFlux), env.min ((seen l).map Source.obsFlux)]) := by
  obtain ⟨⟨y, e1, e2⟩, -⟩ := catalog_split (x := P.fluxes) h.obsFluxes h.trueFluxes h.masks.2.2.1
    h.detected
  unfold lowestFlux
  rw [h.obsFluxes]
  by_cases hl : l = []
  · subst hl
    rfl
  · rw [npMin_map env l _ hl]
    simp only [bind, Except.bind, e1, e2]
    by_cases hs : seen l = []
    · rw [if_pos hs, hs]; rfl
    · rw [npMin_map env _ _ hs, if_neg hs]; rfl

theorem scatter_ok (label : Option String) (xs ys : List F) (ax : Axes F)
    (h : xs.length = ys.length) : scatter label xs ys ax =
      .ok () { ax with artists := ax.artists ++ [.points label xs ys] } := if_pos h

/-- **C67**, observed fluxes: one point per detected object, its distance and observed flux, and
nothing without detections. -/
theorem C67_detected (env : PlotEnv F) (P : Population F) (l : List (Source F)) (h : Catalog P l)
    (ax : Axes F) :
    (seen l = [] → displayObsFluxes env P ax = .ok () ax) ∧
    (seen l ≠ [] → ∃ ax', displayObsFluxes env P ax = .ok () ax' ∧ ax'.artists = ax.artists ++
      [.points (some "Detected flux") ((seen l).map Source.distance)
        ((seen l).map Source.obsFlux)] ∧ ax'.right = some P.rMax) := by
  obtain ⟨⟨y, e1, e2⟩, -⟩ := catalog_split (x := P.fluxes) h.obsFluxes h.trueFluxes h.masks.2.2.1
    h.detected
  obtain ⟨⟨z, d1, d2⟩, -⟩ := catalog_split (x := P.distances) h.distances.2 h.distances.1 h.masks.1
    h.detected
  refine ⟨fun hs => ?_, fun hs => ?_⟩
  · unfold displayObsFluxes
    rw [if_pos (h.noDetection.2 (seen_nil.1 hs))]
    rfl
  · have hn : ¬ P.noDetection = true := fun hc => hs (seen_nil.2 (h.noDetection.1 hc))
    have hl : lowestFlux env P = _ := lowestFlux_eq env h
    rw [if_neg hs] at hl
    have hlen : z.obs.length = y.obs.length := by rw [d2, e2, List.length_map, List.length_map]
    refine ⟨{ ax with
      artists := ax.artists ++ [.points (some "Detected flux") z.obs y.obs]
      bottom := some (env.min [env.min (l.map Source.obsFlux), env.min ((seen l).map Source.obsFlux)])
      right := some P.rMax }, ?_, ?_, rfl⟩
    · unfold displayObsFluxes
      rw [if_neg hn, d1, e1, hl]
      refine (bind_of_ok (a := z) (s1 := ax) rfl).trans ?_
      refine (bind_of_ok (a := y) (s1 := ax) rfl).trans ?_
      refine (bind_of_ok (scatter_ok _ _ _ _ hlen)).trans ?_
      rfl
    · rw [← d2, ← e2]

/-- **C67**, true fluxes: drawn whenever there is an object, one point per object at its distance;
the flux is the observed one. -/
theorem C67_true_drawn (env : PlotEnv F) (P : Population F) (l : List (Source F))
    (h : Catalog P l) (ax : Axes F) :
    (l = [] → ∃ ax', displayTrueFluxes env P ax = .error .value ax') ∧
    (l ≠ [] → ∃ ax', displayTrueFluxes env P ax = .ok () ax' ∧ ax'.artists = ax.artists ++
      [.points (some "True flux") (l.map Source.distance) (l.map Source.obsFlux)]) := by
  have hlen : P.distances.obs.length = P.fluxes.obs.length := by
    rw [h.distances.2, h.obsFluxes, List.length_map, List.length_map]
  have hl : lowestFlux env P = _ := lowestFlux_eq env h
  refine ⟨fun hn => ?_, fun hn => ?_⟩
  · subst hn
    replace hl : lowestFlux env P = .error .value := hl
    unfold displayTrueFluxes
    rw [hl]
    refine ⟨{ ax with
      artists := ax.artists ++ [.points (some "True flux") P.distances.obs P.fluxes.obs] },
      (bind_of_ok (scatter_ok _ _ _ _ hlen)).trans ?_⟩
    rw [h.obsFluxes]
    rfl
  · unfold displayTrueFluxes
    rw [hl]
    by_cases hs : seen l = []
    · rw [if_pos hs]
      refine ⟨{ ax with
        artists := ax.artists ++ [.points (some "True flux") P.distances.obs P.fluxes.obs]
        bottom := some (env.min (l.map Source.obsFlux)) },
        (bind_of_ok (scatter_ok _ _ _ _ hlen)).trans ?_, ?_⟩
      · simp only [h.obsFluxes, npMin_map env l _ hn]
        rfl
      · simp only [h.distances.2, h.obsFluxes]
    · rw [if_neg hs]
      refine ⟨{ ax with
        artists := ax.artists ++ [.points (some "True flux") P.distances.obs P.fluxes.obs]
        bottom := some (env.min [env.min (l.map Source.obsFlux),
          env.min ((seen l).map Source.obsFlux)]) },
        (bind_of_ok (scatter_ok _ _ _ _ hlen)).trans rfl, ?_⟩
      simp only [h.distances.2, h.obsFluxes]

/-- **C67**, limits: the vertical axis starts at the smallest observed flux, so that nothing drawn
is below it, … -/
theorem C67_limits [LinearOrder F] (env : PlotEnv F)
    (hmin : ∀ xs : List F, xs ≠ [] → env.min xs ∈ xs ∧ ∀ x ∈ xs, env.min xs ≤ x)
    (P : Population F) (l : List (Source F)) (h : Catalog P l) (hl : l ≠ []) (ax : Axes F) :
    (∃ ax' b, displayTrueFluxes env P ax = .ok () ax' ∧ ax'.bottom = some b ∧
      (∃ s ∈ l, b = s.obsFlux) ∧ ∀ s ∈ l, b ≤ s.obsFlux) ∧
    (seen l ≠ [] → ∃ ax' b, displayObsFluxes env P ax = .ok () ax' ∧ ax'.bottom = some b ∧
      (∃ s ∈ l, b = s.obsFlux) ∧ ∀ s ∈ l, b ≤ s.obsFlux) := by
  have hlen : P.distances.obs.length = P.fluxes.obs.length := by
    rw [h.distances.2, h.obsFluxes, List.length_map, List.length_map]
  have hlow : lowestFlux env P = _ := lowestFlux_eq env h
  have k : ∀ m : List (Source F), m ≠ [] → (∃ s ∈ m, env.min (m.map Source.obsFlux) = s.obsFlux) ∧
      ∀ s ∈ m, env.min (m.map Source.obsFlux) ≤ s.obsFlux := by
    intro m hm
    obtain ⟨h1, h2⟩ := hmin (m.map Source.obsFlux) (by simpa using hm)
    obtain ⟨s, hs, e⟩ := List.mem_map.1 h1
    exact ⟨⟨s, hs, e.symm⟩, fun s hs => h2 _ (List.mem_map.2 ⟨s, hs, rfl⟩)⟩
  have k2 : seen l ≠ [] → (∃ s ∈ l, env.min [env.min (l.map Source.obsFlux),
        env.min ((seen l).map Source.obsFlux)] = s.obsFlux) ∧
      ∀ s ∈ l, env.min [env.min (l.map Source.obsFlux),
        env.min ((seen l).map Source.obsFlux)] ≤ s.obsFlux := by
    intro hs
    obtain ⟨h1, h2⟩ := hmin [env.min (l.map Source.obsFlux), env.min ((seen l).map Source.obsFlux)]
      (by simp)
    refine ⟨?_, fun s hm => le_trans (h2 _ List.mem_cons_self) ((k l hl).2 s hm)⟩
    rcases List.mem_cons.1 h1 with e | e
    · obtain ⟨s, hs, e'⟩ := (k l hl).1
      exact ⟨s, hs, e.trans e'⟩
    · obtain ⟨s, hs, e'⟩ := (k _ hs).1
      exact ⟨s, (List.mem_filter.1 hs).1, (List.mem_singleton.1 e).trans e'⟩
  refine ⟨?_, fun hs => ?_⟩
  · unfold displayTrueFluxes
    rw [hlow]
    by_cases hs : seen l = []
    · rw [if_pos hs]
      refine ⟨{ ax with
        artists := ax.artists ++ [.points (some "True flux") P.distances.obs P.fluxes.obs]
        bottom := some (env.min (l.map Source.obsFlux)) }, _,
        (bind_of_ok (scatter_ok _ _ _ _ hlen)).trans ?_, rfl, (k l hl).1, (k l hl).2⟩
      simp only [h.obsFluxes, npMin_map env l _ hl]
      rfl
    · rw [if_neg hs]
      exact ⟨{ ax with
        artists := ax.artists ++ [.points (some "True flux") P.distances.obs P.fluxes.obs]
        bottom := some (env.min [env.min (l.map Source.obsFlux),
          env.min ((seen l).map Source.obsFlux)]) }, _,
        (bind_of_ok (scatter_ok _ _ _ _ hlen)).trans rfl, rfl, (k2 hs).1, (k2 hs).2⟩
  · obtain ⟨⟨y, e1, e2⟩, -⟩ := catalog_split (x := P.fluxes) h.obsFluxes h.trueFluxes h.masks.2.2.1
      h.detected
    obtain ⟨⟨z, d1, d2⟩, -⟩ := catalog_split (x := P.distances) h.distances.2 h.distances.1
      h.masks.1 h.detected
    have hn : ¬ P.noDetection = true := fun hc => hs (seen_nil.2 (h.noDetection.1 hc))
    rw [if_neg hs] at hlow
    have hlen : z.obs.length = y.obs.length := by rw [d2, e2, List.length_map, List.length_map]
    refine ⟨{ ax with
      artists := ax.artists ++ [.points (some "Detected flux") z.obs y.obs]
      bottom := some (env.min [env.min (l.map Source.obsFlux), env.min ((seen l).map Source.obsFlux)])
      right := some P.rMax }, _, ?_, rfl, (k2 hs).1, (k2 hs).2⟩
    unfold displayObsFluxes
    rw [if_neg hn, d1, e1, hlow]
    refine (bind_of_ok (a := z) (s1 := ax) rfl).trans ?_
    refine (bind_of_ok (a := y) (s1 := ax) rfl).trans ?_
    refine (bind_of_ok (scatter_ok _ _ _ _ hlen)).trans ?_
    rfl

/-- **C67 is violated** by `display_true_fluxes`: as soon as one observed flux differs from the
true one, what is labelled "True flux" are not the true fluxes. -/
theorem C67_violated_true (env : PlotEnv F) (P : Population F) (l : List (Source F))
    (h : Catalog P l) (s : Source F) (hs : s ∈ l) (hne : s.obsFlux ≠ s.trueFlux) :
    ∃ ax', displayTrueFluxes env P {} = .ok () ax' ∧
      ax'.artists ≠ [.points (some "True flux") (l.map Source.distance) (l.map Source.trueFlux)] := by
  obtain ⟨ax', e1, e2⟩ := (C67_true_drawn env P l h {}).2 (by intro hc; rw [hc] at hs; cases hs)
  refine ⟨ax', e1, ?_⟩
  rw [e2]
  intro hc
  have : l.map Source.obsFlux = l.map Source.trueFlux := by
    simp only [List.nil_append, List.cons.injEq, Artist.points.injEq, true_and, and_true] at hc
    exact hc
  exact hne (List.map_inj_left.1 this s hs)

theorem drawArrows_same (env : PlotEnv F) (l : List (Source F)) (ax : Axes F) :
    ∃ ax', drawArrows env (l.map Source.obsFlux) (l.map Source.obsFlux) (l.map Source.distance) ax
      = .ok () ax' ∧ ax'.artists = ax.artists ++ l.map fun s =>
        .arrow s.distance s.obsFlux env.zero (env.sub s.obsFlux s.obsFlux) := by
  induction l generalizing ax with
  | nil => exact ⟨ax, rfl, by simp⟩
  | cons s l ih =>
    obtain ⟨ax', e1, e2⟩ := ih { ax with artists := ax.artists ++
      [.arrow s.distance s.obsFlux env.zero (env.sub s.obsFlux s.obsFlux)] }
    refine ⟨ax', ?_, ?_⟩
    · rw [← e1]; rfl
    · rw [e2]; simp

/-- **C67**, fluxes: what is drawn in total. -/
theorem C67_fluxes (env : PlotEnv F) (withArrows : Bool) (P : Population F) (l : List (Source F))
    (h : Catalog P l) (hl : l ≠ []) :
    ∃ ax', displayFluxes env withArrows P {} = .ok () ax' ∧ ax'.artists =
      [.points (some "True flux") (l.map Source.distance) (l.map Source.obsFlux)] ++
      (if seen l = [] then [] else
        [.points (some "Detected flux") ((seen l).map Source.distance)
          ((seen l).map Source.obsFlux)]) ++
      (if withArrows then (seen l).map fun s =>
        .arrow s.distance s.obsFlux env.zero (env.sub s.obsFlux s.obsFlux) else []) := by
  obtain ⟨ax1, k1, k2⟩ := (C67_true_drawn env P l h {}).2 hl
  obtain ⟨⟨y, e1, e2⟩, -, ⟨w, w1, w2⟩⟩ := catalog_split (x := P.fluxes) h.obsFluxes h.trueFluxes
    h.masks.2.2.1 h.detected
  obtain ⟨⟨z, d1, d2⟩, -⟩ := catalog_split (x := P.distances) h.distances.2 h.distances.1 h.masks.1
    h.detected
  have k2' : ax1.artists = [.points (some "True flux") (l.map Source.distance)
      (l.map Source.obsFlux)] := by rw [k2]; rfl
  unfold displayFluxes
  rw [bind_of_ok k1]
  by_cases hs : seen l = []
  · have hn := h.noDetection.2 (seen_nil.1 hs)
    rw [hn, hs]
    refine ⟨ax1, ?_, ?_⟩
    · cases withArrows <;> rfl
    · rw [k2']; cases withArrows <;> simp
  · have hn : P.noDetection = false := by
      cases hc : P.noDetection with
      | false => rfl
      | true => exact absurd (seen_nil.2 (h.noDetection.1 hc)) hs
    obtain ⟨ax2, m1, m2, -⟩ := (C67_detected env P l h ax1).2 hs
    rw [hn, if_neg hs]
    simp only [Bool.not_false, if_true, Bool.and_true]
    rw [bind_of_ok m1]
    cases withArrows with
    | false =>
      refine ⟨ax2, rfl, ?_⟩
      rw [m2, k2']; simp
    | true =>
      obtain ⟨ax3, n1, n2⟩ := drawArrows_same env (seen l) ax2
      refine ⟨ax3, ?_, ?_⟩
      · simp only [if_true]
        rw [w1, e1, d1]
        refine (bind_of_ok (a := Got.var w) (s1 := ax2) rfl).trans ?_
        refine (bind_of_ok (a := y) (s1 := ax2) rfl).trans ?_
        refine (bind_of_ok (a := z) (s1 := ax2) rfl).trans ?_
        rw [e2, d2]
        show drawArrows env w.obs _ _ ax2 = _
        rw [w2, n1]
      · rw [n2, m2, k2']; simp

/-- **C67 (arrows).** The loop that draws arrows is right: given where arrows start and stop, it
draws one for each, vertical, from the start, with its tip at the stop.  (What is wrong is what
it is given, `C67_violated_arrows`.) -/
theorem C67_arrow_tips (env : PlotEnv F) (add : F → F → F) (ha : ∀ a b, add a (env.sub b a) = b)
    (l : List (F × F × F)) (ax : Axes F) :
    ∃ (ax' : Axes F) (ds : List F),
      drawArrows env (l.map (·.2.1)) (l.map (·.2.2)) (l.map (·.1)) ax = .ok () ax' ∧
      ax'.artists = ax.artists ++ List.zipWith (fun t d => .arrow t.1 t.2.1 env.zero d) l ds ∧
      ds.length = l.length ∧ List.zipWith (fun t d => add t.2.1 d) l ds = l.map (·.2.2) := by
  induction l generalizing ax with
  | nil => exact ⟨ax, [], rfl, by simp, rfl, rfl⟩
  | cons t l ih =>
    obtain ⟨ax', ds, e1, e2, e3, e4⟩ := ih { ax with artists := ax.artists ++
      [.arrow t.1 t.2.1 env.zero (env.sub t.2.2 t.2.1)] }
    refine ⟨ax', env.sub t.2.2 t.2.1 :: ds, ?_, ?_, by simp [e3], ?_⟩
    · rw [← e1]; rfl
    · rw [e2]; simp
    · rw [List.zipWith_cons_cons, e4, ha]; rfl

/-- An arrow from 2 to 7 at 1, and one from 5 to 4 at 3. -/
example : ∃ ax', drawArrows { zero := (0 : Int), sub := (· - ·), min := fun _ => 0 } [2, 5] [7, 4]
    [1, 3] {} = .ok () ax' ∧ ax'.artists = [.arrow 1 2 0 5, .arrow 3 5 0 (-1)] := ⟨_, rfl, by decide⟩

/-- **C67 is violated** by the arrows of `display_fluxes`: they are to lead from the true flux to
the observed one, but start at the observed one and have no length. -/
theorem C67_violated_arrows (env : PlotEnv F) (P : Population F) (l : List (Source F))
    (h : Catalog P l) (hl : l ≠ []) (hz : ∀ x, env.sub x x = env.zero) :
    ∃ ax', displayFluxes env true P {} = .ok () ax' ∧
      ∀ x y dx dy, .arrow x y dx dy ∈ ax'.artists → dx = env.zero ∧ dy = env.zero := by
  obtain ⟨ax', e1, e2⟩ := C67_fluxes env true P l h hl
  refine ⟨ax', e1, fun x y dx dy hm => ?_⟩
  rw [e2, List.mem_append, List.mem_append] at hm
  rcases hm with (hm | hm) | hm
  · simp at hm
  · split at hm <;> simp at hm
  · rw [if_pos rfl, List.mem_map] at hm
    obtain ⟨s, -, hs⟩ := hm
    cases hs
    exact ⟨rfl, hz _⟩

/-- **C67**, luminosities: two groups of points, the detected objects and the others; no object
is in both or in neither. -/
theorem C67_luminosities (P : Population F) (l : List (Source F)) (h : Catalog P l) :
    (∃ ax', displayLuminosities P {} = .ok () ax' ∧ ax'.artists =
      [.points none ((seen l).map Source.distance) ((seen l).map Source.luminosity),
       .points none ((unseen l).map Source.distance) ((unseen l).map Source.luminosity)]) ∧
    (seen l ++ unseen l).Perm l := by
  obtain ⟨⟨z, d1, d2⟩, ⟨z', d1', d2'⟩, -⟩ := catalog_split (x := P.distances) h.distances.2
    h.distances.1 h.masks.1 h.detected
  obtain ⟨⟨y, e1, e2⟩, ⟨y', e1', e2'⟩, -⟩ := catalog_split (x := P.luminosities) h.luminosities.2
    h.luminosities.1 h.masks.2.1 h.detected
  have hlen : z.obs.length = y.obs.length := by rw [d2, e2, List.length_map, List.length_map]
  have hlen' : z'.obs.length = y'.obs.length := by rw [d2', e2', List.length_map, List.length_map]
  refine ⟨⟨{ artists := [.points none z.obs y.obs, .points none z'.obs y'.obs] }, ?_, ?_⟩,
    List.filter_append_perm Source.detected l⟩
  · unfold displayLuminosities
    rw [d1, e1, d1', e1']
    refine (bind_of_ok (a := z) (s1 := _) rfl).trans ?_
    refine (bind_of_ok (a := y) (s1 := _) rfl).trans ?_
    refine (bind_of_ok (scatter_ok _ _ _ _ hlen)).trans ?_
    refine (bind_of_ok (a := z') (s1 := _) rfl).trans ?_
    refine (bind_of_ok (a := y') (s1 := _) rfl).trans ?_
    exact scatter_ok _ _ _ _ hlen'
  · simp only [d2, e2, d2', e2']

/-- **C67**, distances: histograms of all distances and of those of the detected objects. -/
theorem C67_distances (P : Population F) (l : List (Source F)) (h : Catalog P l) :
    ∃ ax', displayDistances P {} = .ok () ax' ∧ ax'.artists =
      [.bars "Total Pop." (l.map Source.distance),
       .bars "Obs. Pop." ((seen l).map Source.distance)] := by
  obtain ⟨⟨z, d1, d2⟩, -⟩ := catalog_split (x := P.distances) h.distances.2 h.distances.1 h.masks.1
    h.detected
  refine ⟨{ artists := [.bars "Total Pop." P.distances.obs, .bars "Obs. Pop." z.obs] }, ?_, ?_⟩
  · unfold displayDistances
    rw [d1]
    rfl
  · simp only [d2, h.distances.2]

theorem countTrue_map (l : List (Source F)) :
    countTrue (l.map Source.detected) = (seen l).length := by
  unfold countTrue seen
  induction l with
  | nil => rfl
  | cons s l ih => cases h : s.detected <;> simp_all

/-- **C67**, display: the numbers of detected and of all objects, then the parameters of
luminosities and distances in order; without parameters of the distances it fails after showing
the rest. -/
theorem C67_display (P : Population F) (l : List (Source F)) (h : Catalog P l)
    (lf sp : Option (Dict (Option F))) :
    (∀ d, sp = some d → displayPopulation P lf sp [] = .ok ()
      ([.counts P.name (seen l).length l.length] ++
        (match lf with
          | some t => [.title "Luminosity Function", .formula P.lfForm, .table t]
          | none => []) ++
        [.title "Spatial Function", .formula P.spatialForm, .table d])) ∧
    (sp = none → ∃ shown, displayPopulation P lf sp [] = .error .attribute shown) := by
  have e1 : countTrue P.selection = (seen l).length := by rw [h.detected, countTrue_map]
  have e2 : P.fluxes.obs.length = l.length := by rw [h.obsFluxes, List.length_map]
  refine ⟨fun d hd => ?_, fun hd => ?_⟩ <;> subst hd <;> unfold displayPopulation <;> rw [e1, e2]
  · cases lf <;> rfl
  · cases lf <;> exact ⟨_, rfl⟩

/-- **C67**, text: total, detected and missed objects. -/
theorem C67_repr (a : PopArgs F) (P : Population F) (h : mkPopulation a = .ok P)
    (l : List (Source F)) (hc : Catalog P l) :
    reprCounts P = (l.length, (seen l).length, (unseen l).length) := by
  have k := mkPopulation_ok h
  have hsel : P.selection = a.selection := k.rest.2.2.2.1
  have hd := hc.detected
  rw [hsel] at hd
  have e1 : countTrue a.selection = (seen l).length := by rw [hd, countTrue_map]
  have e2 : a.selection.length = l.length := by rw [hd, List.length_map]
  have e3 : (seen l).length + (unseen l).length = l.length := by
    have := (List.filter_append_perm Source.detected l).length_eq
    rwa [List.length_append] at this
  unfold reprCounts
  rw [k.counts.2.1, k.counts.2.2.1, e1, e2]
  simp only [Prod.mk.injEq, true_and]
  omega

end

/-! ### Three objects, two of them detected -/

namespace DisplayExample

def sources : List (Source Int) :=
  [⟨1, 10, 8, 9, 0, 1, true⟩, ⟨2, 11, 5, 3, 1, 2, false⟩, ⟨3, 12, 7, 6, 2, 3, true⟩]

def args : PopArgs Int :=
  { luminosities := [10, 11, 12], distances := [1, 2, 3], knownDistances := [1, 3],
    knownIdx := [0, 1], unknownIdx := [], fluxes := [8, 5, 7], fluxObs := [9, 3, 6],
    selection := [true, false, true], fluxSigma := 0, rMax := 5, nModel := 2,
    lfParams := none, spatialParams := none, spacesNow := [],
    modelSpaces := none, seed := 1, name := "three", aux := none,
    truth := [], graph := none, theta := [0, 1, 2], phi := [1, 2, 3], popSynth := none,
    probability := none }

def env : PlotEnv Int := ⟨0, fun a b => a - b, fun xs => (xs.min?).getD 0⟩

/-- The axis after a plot of the population. -/
def axes (plot : Population Int → Py (Axes Int) Unit) : Option (Axes Int) :=
  match mkPopulation args with
  | .ok P => match plot P {} with
    | .ok _ ax => some ax
    | .error _ _ => none
  | .error _ => none

theorem built : ∃ P, mkPopulation args = .ok P ∧ Catalog P sources := by
  cases h : mkPopulation args with
  | error e =>
    have : (mkPopulation args).toOption.isSome = true := by decide +kernel
    rw [h] at this
    cases this
  | ok P =>
    refine ⟨P, rfl, ?_⟩
    obtain ⟨l, hc, ⟨e1, e2, e3, e4, e5, e6, e7⟩, -⟩ := C67_catalog args P h
    have : l = sources := by
      match l with
      | [⟨_, _, _, _, _, _, _⟩, ⟨_, _, _, _, _, _, _⟩, ⟨_, _, _, _, _, _, _⟩] =>
        simp_all [args, sources]
      | [] => simp [args] at e1
      | [_] => simp [args] at e1
      | [_, _] => simp [args] at e1
      | _ :: _ :: _ :: _ :: _ => simp [args] at e1
    exact this ▸ hc

example : axes (displayFluxes env true) = some
    { artists := [.points (some "True flux") [1, 2, 3] [9, 3, 6],
        .points (some "Detected flux") [1, 3] [9, 6], .arrow 1 9 0 0, .arrow 3 6 0 0],
      bottom := some 3, right := some 5 } := by decide +kernel

example : axes displayLuminosities = some
    { artists := [.points none [1, 3] [10, 12], .points none [2] [11]] } := by decide +kernel

example : axes displayDistances = some
    { artists := [.bars "Total Pop." [1, 2, 3], .bars "Obs. Pop." [1, 3]] } := by decide +kernel

example : (mkPopulation args).toOption.map reprCounts = some (3, 2, 1) := by decide +kernel

end DisplayExample

/-! ### Spheres -/

noncomputable section

/-- **C67**, colours: one per value, between 0 and 1, and stronger for larger values; the
smallest value has 0 and, if there are different values, the largest 1. -/
theorem C67_colours (values cs : List ℝ) (useLog : Bool)
    (h : arrayToCmap values useLog = .ok cs) :
    cs.length = values.length ∧ (∀ c ∈ cs, 0 ≤ c ∧ c ≤ 1) ∧
    ∀ (i j : Nat) (v w c d : ℝ), values[i]? = some v → values[j]? = some w → cs[i]? = some c →
      cs[j]? = some d → (v < w ↔ c < d) ∧
        ((∀ u ∈ values, v ≤ u) → c = 0) ∧ ((∀ u ∈ values, u ≤ w) → v < w → d = 1) := by
  -- a strictly increasing scale
  have key : ∀ (f : ℝ → ℝ) (lo hi : ℝ), lo ∈ values → hi ∈ values →
      (∀ u ∈ values, lo ≤ u ∧ u ≤ hi) → f lo = 0 → f hi = 1 →
      (∀ u ∈ values, ∀ v ∈ values, u < v → f u < f v) → cs = values.map f →
      cs.length = values.length ∧ (∀ c ∈ cs, 0 ≤ c ∧ c ≤ 1) ∧
      ∀ (i j : Nat) (v w c d : ℝ), values[i]? = some v → values[j]? = some w → cs[i]? = some c →
      cs[j]? = some d → (v < w ↔ c < d) ∧
        ((∀ u ∈ values, v ≤ u) → c = 0) ∧ ((∀ u ∈ values, u ≤ w) → v < w → d = 1) := by
    intro f lo hi hlo hhi hb f0 f1 hm e
    have hle : ∀ u ∈ values, ∀ v ∈ values, u ≤ v → f u ≤ f v := by
      intro u hu v hv huv
      rcases eq_or_lt_of_le huv with e | e
      · rw [e]
      · exact (hm u hu v hv e).le
    subst e
    refine ⟨List.length_map _, fun c hc => ?_, fun i j v w c d hv hw hc hd => ?_⟩
    · obtain ⟨u, hu, rfl⟩ := List.mem_map.1 hc
      exact ⟨f0 ▸ hle lo hlo u hu (hb u hu).1, f1 ▸ hle u hu hi hhi (hb u hu).2⟩
    · have mv := List.mem_of_getElem? hv
      have mw := List.mem_of_getElem? hw
      rw [List.getElem?_map, hv] at hc
      rw [List.getElem?_map, hw] at hd
      obtain rfl := Option.some.inj hc
      obtain rfl := Option.some.inj hd
      refine ⟨⟨hm v mv w mw, fun hlt => ?_⟩, fun hmin => ?_, fun hmax _ => ?_⟩
      · by_contra hc
        exact absurd hlt (not_lt.2 (hle w mw v mv (not_lt.1 hc)))
      · rw [le_antisymm (hmin lo hlo) (hb v mv).1, f0]
      · rw [le_antisymm (hb w mw).2 (hmax hi hhi), f1]
  unfold arrayToCmap at h
  split at h
  · rename_i lo hi e1 e2
    obtain ⟨m1, b1⟩ := List.min?_eq_some_iff.1 e1
    obtain ⟨m2, b2⟩ := List.max?_eq_some_iff.1 e2
    split at h
    · rename_i heq
      cases h
      have hall : ∀ u ∈ values, u = lo := fun u hu =>
        le_antisymm (heq ▸ b2 u hu) (b1 u hu)
      refine ⟨List.length_map _, fun c hc => ?_, fun i j v w c d hv hw hc hd => ?_⟩
      · obtain ⟨u, hu, rfl⟩ := List.mem_map.1 hc
        norm_num
      · have mv := hall v (List.mem_of_getElem? hv)
        have mw := hall w (List.mem_of_getElem? hw)
        rw [List.getElem?_map, hv] at hc
        rw [List.getElem?_map, hw] at hd
        obtain rfl := Option.some.inj hc
        obtain rfl := Option.some.inj hd
        subst mv mw
        simp
    · rename_i hne
      have hlt : lo < hi := lt_of_le_of_ne (b1 hi m2) hne
      split at h
      · split at h
        · rename_i hpos
          cases h
          have hl : 0 < Real.log hi - Real.log lo := sub_pos.2 (Real.log_lt_log hpos hlt)
          refine key (fun v => (Real.log v - Real.log lo) / (Real.log hi - Real.log lo)) lo hi m1 m2
            (fun u hu => ⟨b1 u hu, b2 u hu⟩) (by simp) (div_self hl.ne')
            (fun u hu v _ huv => ?_) rfl
          refine div_lt_div_of_pos_right ?_ hl
          have := Real.log_lt_log (lt_of_lt_of_le hpos (b1 u hu)) huv
          linarith
        · cases h
      · cases h
        have hl : 0 < hi - lo := sub_pos.2 hlt
        refine key (fun v => (v - lo) / (hi - lo)) lo hi m1 m2
            (fun u hu => ⟨b1 u hu, b2 u hu⟩) (by simp) (div_self hl.ne')
          (fun u hu v _ huv => ?_) rfl
        exact div_lt_div_of_pos_right (by linarith) hl
  · cases h

/-- The logarithmic scale exists for positive values, … -/
theorem C67_colours_positive (values : List ℝ) (h : values ≠ []) (hp : ∀ v ∈ values, 0 < v) :
    ∃ cs, arrayToCmap values true = .ok cs := by
  unfold arrayToCmap
  cases e1 : values.min? with
  | none => exact absurd (List.min?_eq_none_iff.1 e1) h
  | some lo =>
    cases e2 : values.max? with
    | none => exact absurd (List.max?_eq_none_iff.1 e2) h
    | some hi =>
      have := hp lo (List.min?_eq_some_iff.1 e1).1
      simp only [this, if_true]
      split <;> exact ⟨_, rfl⟩

/-- … and does not depend on the unit of the values. -/
theorem C67_colours_unit (values : List ℝ) (k : ℝ) (hk : 0 < k) (h : values ≠ [])
    (hp : ∀ v ∈ values, 0 < v) :
    arrayToCmap (values.map fun v => k * v) true = arrayToCmap values true := by
  have e1 : ∀ lo, values.min? = some lo → (values.map fun v => k * v).min? = some (k * lo) := by
    intro lo hlo
    obtain ⟨m, b⟩ := List.min?_eq_some_iff.1 hlo
    refine List.min?_eq_some_iff.2 ⟨List.mem_map.2 ⟨lo, m, rfl⟩, fun u hu => ?_⟩
    obtain ⟨v, hv, rfl⟩ := List.mem_map.1 hu
    exact mul_le_mul_of_nonneg_left (b v hv) hk.le
  have e2 : ∀ hi, values.max? = some hi → (values.map fun v => k * v).max? = some (k * hi) := by
    intro hi hhi
    obtain ⟨m, b⟩ := List.max?_eq_some_iff.1 hhi
    refine List.max?_eq_some_iff.2 ⟨List.mem_map.2 ⟨hi, m, rfl⟩, fun u hu => ?_⟩
    obtain ⟨v, hv, rfl⟩ := List.mem_map.1 hu
    exact mul_le_mul_of_nonneg_left (b v hv) hk.le
  cases h1 : values.min? with
  | none => exact absurd (List.min?_eq_none_iff.1 h1) h
  | some lo =>
    cases h2 : values.max? with
    | none => exact absurd (List.max?_eq_none_iff.1 h2) h
    | some hi =>
      have plo := hp lo (List.min?_eq_some_iff.1 h1).1
      have phi := hp hi (List.max?_eq_some_iff.1 h2).1
      unfold arrayToCmap
      rw [e1 lo h1, e2 hi h2, h1, h2]
      simp only [List.map_map, plo, mul_pos hk plo, if_true, mul_right_inj' hk.ne']
      split
      · rfl
      · congr 1
        refine List.map_congr_left fun v hv => ?_
        simp only [Function.comp_apply]
        rw [Real.log_mul hk.ne' (hp v hv).ne', Real.log_mul hk.ne' plo.ne',
          Real.log_mul hk.ne' phi.ne']
        congr 1 <;> ring

/-- Where an object is drawn. -/
def Spec.place (transform : Option (ℝ → ℝ)) (s : Source ℝ) : ℝ × ℝ × ℝ :=
  let r := (transform.getD id) s.distance
  (r * Real.sin s.theta * Real.cos s.phi, r * Real.sin s.theta * Real.sin s.phi,
    r * Real.cos s.theta)

theorem sphereVariables_map (t : Option (ℝ → ℝ)) (l : List (Source ℝ)) :
    sphereVariables (t.elim (l.map Source.distance) fun t => (l.map Source.distance).map t)
      (l.map Source.theta) (l.map Source.phi) =
      .ok (l.map (place t)) := by
  unfold sphereVariables
  rw [if_pos (by cases t <;> simp)]
  congr 1
  induction l with
  | nil => cases t <;> rfl
  | cons s l ih =>
    cases t <;> exact congrArg (List.cons _) ih

/-- Drawing a group of objects. -/
theorem displaySphere_eq (t : Option (ℝ → ℝ)) (u fig : Bool) (l : List (Source ℝ))
    (hp : ∀ s ∈ l, 0 < s.obsFlux) (sc : Scene) :
    (l = [] → displaySphere (l.map Source.obsFlux) (l.map Source.distance) (l.map Source.theta)
      (l.map Source.phi) t u fig sc = .ok false sc) ∧
    (l ≠ [] → ∃ ms : List Marker, ms.map Marker.pos = l.map (place t) ∧
      (arrayToCmap (l.map Source.obsFlux) true = .ok (ms.map Marker.colour)) ∧
      displaySphere (l.map Source.obsFlux) (l.map Source.distance) (l.map Source.theta)
        (l.map Source.phi) t u fig sc =
        .ok true (Scene.draw (if fig then sc else sc ++ [[]]) ms)) := by
  refine ⟨fun h => ?_, fun h => ?_⟩
  · subst h; rfl
  · obtain ⟨cs, hcs⟩ := C67_colours_positive (l.map Source.obsFlux) (by simpa using h)
      (fun v hv => by obtain ⟨s, hs, rfl⟩ := List.mem_map.1 hv; exact hp s hs)
    have hlen := (C67_colours _ _ _ hcs).1
    rw [List.length_map] at hlen
    refine ⟨List.zipWith (fun p c => Marker.mk p c) (l.map (place t)) cs, ?_, ?_, ?_⟩
    · rw [List.map_zipWith]
      have : ∀ (a : List (ℝ × ℝ × ℝ)) (b : List ℝ), b.length = a.length →
          List.zipWith (fun p (_ : ℝ) => p) a b = a := by
        intro a
        induction a with
        | nil => intro b _; rfl
        | cons x a ih =>
          intro b hb
          cases b with
          | nil => simp at hb
          | cons y b => rw [List.zipWith_cons_cons, ih b (by simpa using hb)]
      exact this _ _ (by rw [List.length_map, hlen])
    · rw [hcs, List.map_zipWith]
      have : ∀ (a : List (ℝ × ℝ × ℝ)) (b : List ℝ), b.length = a.length →
          List.zipWith (fun (_ : ℝ × ℝ × ℝ) c => c) a b = b := by
        intro a
        induction a with
        | nil => intro b hb; rw [List.length_eq_zero_iff.1 hb]; rfl
        | cons x a ih =>
          intro b hb
          cases b with
          | nil => simp at hb
          | cons y b => rw [List.zipWith_cons_cons, ih b (by simpa using hb)]
      congr 1
      exact (this _ _ (by rw [List.length_map, hlen])).symm
    · have he : (l.map Source.obsFlux).isEmpty = false := by cases l with
        | nil => exact absurd rfl h
        | cons => rfl
      unfold displaySphere
      rw [he]
      simp only [sphereVariables_map, hcs]
      cases fig <;> rfl

/-- **C67**, spheres: if the observed fluxes are positive, one figure is made, with one sphere
per object, first the detected ones and then the others, in the direction of the object and at
its (transformed) distance from the centre.  The colours are those of the observed fluxes, on
a scale of its own for either group. -/
theorem C67_sphere (P : Population ℝ) (l : List (Source ℝ)) (h : Catalog P l) (hl : l ≠ [])
    (hp : ∀ s ∈ l, 0 < s.obsFlux) (t : Option (ℝ → ℝ)) (u : Bool) :
    (∃ ms : List Marker, displayFluxSphere P t u [] = .ok (!(unseen l).isEmpty) [ms] ∧
      ms.map Marker.pos = (seen l ++ unseen l).map (place t) ∧
      ∃ c1 c2, ms.map Marker.colour = c1 ++ c2 ∧ c1.length = (seen l).length ∧
        (seen l ≠ [] → arrayToCmap ((seen l).map Source.obsFlux) true = .ok c1) ∧
        (unseen l ≠ [] → arrayToCmap ((unseen l).map Source.obsFlux) true = .ok c2)) ∧
    (seen l ++ unseen l).Perm l ∧
    ∀ s ∈ l, (place t s).1 ^ 2 + (place t s).2.1 ^ 2 + (place t s).2.2 ^ 2 =
      ((t.getD id) s.distance) ^ 2 := by
  obtain ⟨⟨f, f1, f2⟩, ⟨f', f1', f2'⟩, -⟩ := catalog_split (x := P.fluxes) h.obsFluxes h.trueFluxes
    h.masks.2.2.1 h.detected
  obtain ⟨⟨d, d1, d2⟩, ⟨d', d1', d2'⟩, -⟩ := catalog_split (x := P.distances) h.distances.2
    h.distances.1 h.masks.1 h.detected
  obtain ⟨-, ⟨a', a1', a2'⟩, ⟨a, a1, a2⟩⟩ := catalog_split (x := P.theta) h.theta.2 h.theta.1
    h.masks.2.2.2.1 h.detected
  obtain ⟨-, ⟨b', b1', b2'⟩, ⟨b, b1, b2⟩⟩ := catalog_split (x := P.phi) h.phi.2 h.phi.1
    h.masks.2.2.2.2 h.detected
  have hp1 : ∀ s ∈ seen l, 0 < s.obsFlux := fun s hs => hp s (List.mem_filter.1 hs).1
  have hp2 : ∀ s ∈ unseen l, 0 < s.obsFlux := fun s hs => hp s (List.mem_filter.1 hs).1
  have e1 : ∀ fig sc, displayObsSphere P t u fig sc =
      displaySphere ((seen l).map Source.obsFlux) ((seen l).map Source.distance)
        ((seen l).map Source.theta) ((seen l).map Source.phi) t u fig sc := by
    intro fig sc
    unfold displayObsSphere
    rw [a1, b1, f1, d1, ← f2, ← d2, ← a2, ← b2]
    rfl
  have e2 : ∀ fig sc, displayHiddenSphere P t u fig sc =
      displaySphere ((unseen l).map Source.obsFlux) ((unseen l).map Source.distance)
        ((unseen l).map Source.theta) ((unseen l).map Source.phi) t u fig sc := by
    intro fig sc
    unfold displayHiddenSphere
    rw [a1', b1', f1', d1', ← f2', ← d2', ← a2', ← b2']
    rfl
  refine ⟨?_, List.filter_append_perm Source.detected l, fun s _ => ?_⟩
  · unfold displayFluxSphere
    by_cases hs : seen l = []
    · have k1 := (e1 false []).trans ((displaySphere_eq t u false (seen l) hp1 []).1 hs)
      rw [bind_of_ok k1, e2]
      have hu : unseen l ≠ [] := by
        intro hc
        have := (List.filter_append_perm Source.detected l).length_eq
        unfold seen at hs
        unfold unseen at hc
        rw [hs, hc] at this
        exact hl (List.length_eq_zero_iff.1 this.symm)
      obtain ⟨ms, g1, gc, g2⟩ := (displaySphere_eq t u false (unseen l) hp2 []).2 hu
      refine ⟨ms, ?_, ?_, [], ms.map Marker.colour, rfl, by rw [hs]; rfl, fun hc => absurd hs hc,
        fun _ => gc⟩
      · rw [g2]
        have : (unseen l).isEmpty = false := by
          cases hx : unseen l with
          | nil => exact absurd hx hu
          | cons => rfl
        rw [this]
        rfl
      · rw [g1, hs]; rfl
    · obtain ⟨ms, g1, gc, g2⟩ := (displaySphere_eq t u false (seen l) hp1 []).2 hs
      have gl : (ms.map Marker.colour).length = (seen l).length := by
        have := (C67_colours _ _ _ gc).1
        rwa [List.length_map (f := Source.obsFlux)] at this
      have k1 := (e1 false []).trans g2
      rw [bind_of_ok k1, e2]
      by_cases hu : unseen l = []
      · refine ⟨ms, ?_, ?_, ms.map Marker.colour, [], by rw [List.append_nil], gl, fun _ => gc,
          fun hc => absurd hu hc⟩
        · rw [(displaySphere_eq t u true (unseen l) hp2 _).1 hu, hu]; rfl
        · rw [g1, hu, List.append_nil]
      · obtain ⟨ms', g1', gc', g2'⟩ := (displaySphere_eq t u true (unseen l) hp2
          (Scene.draw [[]] ms)).2 hu
        refine ⟨ms ++ ms', ?_, ?_, _, _, List.map_append, gl, fun _ => gc, fun _ => gc'⟩
        · have : (unseen l).isEmpty = false := by
            cases hx : unseen l with
            | nil => exact absurd hx hu
            | cons => rfl
          rw [this]
          exact g2'
        · rw [List.map_append, g1, g1', List.map_append]
  · exact (C52_xyz ((t.getD id) s.distance) s.theta s.phi).1

/-- **C67 is violated** by `display_flux_sphere` if every object is detected: the figure is drawn
but `None` is returned.  And `use_log` has no effect. -/
theorem C67_violated_figure (P : Population ℝ) (l : List (Source ℝ)) (h : Catalog P l)
    (hl : l ≠ []) (hp : ∀ s ∈ l, 0 < s.obsFlux) (hd : ∀ s ∈ l, s.detected = true)
    (t : Option (ℝ → ℝ)) (u : Bool) :
    ∃ ms : List Marker, displayFluxSphere P t u [] = .ok false [ms] ∧ ms.length = l.length ∧
      displayFluxSphere P t (!u) [] = displayFluxSphere P t u [] := by
  have hu : unseen l = [] := by
    unfold unseen
    rw [List.filter_eq_nil_iff]
    intro s hs
    rw [hd s hs]
    simp
  obtain ⟨⟨ms, e1, e2, -⟩, e3, -⟩ := C67_sphere P l h hl hp t u
  refine ⟨ms, ?_, ?_, rfl⟩
  · rw [e1, hu]; rfl
  · have := congrArg List.length e2
    rw [List.length_map, List.length_map, e3.length_eq] at this
    exact this

example : ∃ cs, arrayToCmap [1, 10, 100] true = .ok cs ∧ cs[0]? = some 0 ∧ cs[2]? = some 1 := by
  obtain ⟨cs, h⟩ := C67_colours_positive [1, 10, 100] (by simp) (by
    intro v hv
    simp only [List.mem_cons, List.not_mem_nil, or_false] at hv
    rcases hv with rfl | rfl | rfl <;> norm_num)
  obtain ⟨hlen, -, hc⟩ := C67_colours _ _ _ h
  match cs, hlen with
  | [c, d, e], _ =>
    obtain ⟨-, g1, g2⟩ := hc 0 2 1 100 c e rfl rfl rfl rfl
    refine ⟨_, h, ?_, ?_⟩
    · rw [List.getElem?_cons_zero, g1 (by simp)]
    · show some e = some 1
      rw [g2 (by simp; norm_num) (by norm_num)]

end

end Popsynth
