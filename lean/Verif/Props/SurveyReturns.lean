import Verif.Props.SurveyState
import Verif.Props.Graph
import Verif.Props.Population
import Verif.Props.SurveyNoise
import Verif.Props.SelectionReturns

/-!
# C24: a survey of working parts returns exactly when there is a luminosity source

The parts – spatial distribution, luminosity distribution, samplers, selectors – are
arbitrary; each is only required to do its own job.
-/

set_option autoImplicit false
set_option linter.unusedSectionVars false

namespace Popsynth
open Spec
variable {F G : Type} [LE F] [DecidableLE F] [OfNat F 0] [OfNat F 1]

/-! ### What is required of the parts -/

/-- There is a mask with one entry per object. -/
def Spec.HasMask (n : Nat) (o : Option (List Bool)) : Prop := ∃ m, o = some m ∧ m.length = n

/-- Positions of `n` objects at good distances. -/
def Spec.GoodPos (goodD : F → Prop) (n : Nat) (v : Spatial F) : Prop :=
  v.distance.length = n ∧ v.theta.length = n ∧ v.phi.length = n ∧ ∀ x ∈ v.distance, goodD x

/-- Luminosities of `n` objects, if needed. -/
def Spec.Lit (goodL : F → Prop) (n : Nat) (need : Bool) (o : Option (List F)) : Prop :=
  need = true → ∃ l, o = some l ∧ l.length = n ∧ ∀ x ∈ l, goodL x

/-- A spatial distribution whose methods work while its parameters satisfy `J`. -/
structure Spec.Places (c : SpatialCode F G) (nz : Bool) (J : Obj F → Prop) (goodD : F → Prop) :
    Prop where
  distances : ∀ n (t : SpSt F G), J t.sp.params → ∃ t' d p, c.drawDistance n nz t = .ok () t' ∧
    J t'.sp.params ∧ t'.sp.distances = some d ∧ d.length = n ∧ (∀ x ∈ d, goodD x) ∧
    t'.sp.probability = some p ∧ p.length = n
  sky : ∀ n (t : SpSt F G) d, J t.sp.params → t.sp.distances = some d → d.length = n →
    (∀ x ∈ d, goodD x) → ∃ t' v, c.drawSky n t = .ok () t' ∧ J t'.sp.params ∧
      t'.sp.distances = some v.distance ∧ t'.sp.theta = some v.theta ∧ t'.sp.phi = some v.phi ∧
      GoodPos goodD n v
  radius : ∀ o, J o → ∃ r o', c.readRMax o = .ok r o'

/-- A luminosity distribution whose methods work while its parameters satisfy `K`. -/
structure Spec.Shines (c : LumCode F G) (K : Obj F → Prop) (goodL : F → Prop) : Prop where
  draws : ∀ n (t : LumSt F G), K t.lum.params → ∃ l t', c.draw n t = .ok l t' ∧
    K t'.lum.params ∧ l.length = n ∧ ∀ x ∈ l, goodL x
  density : ∀ l o, K o → (∀ x ∈ l, goodL x) → ∃ p o', c.phi l o = .ok p o' ∧ p.length = l.length

/-- A derived luminosity sampler that turns what it drew and saw into luminosities. -/
def Spec.Derives (c : SamplerCode F G) (I : Obj F → Prop) (goodD goodL : F → Prop) : Prop :=
  ∀ n v t o, Sees n (GoodPos goodD n) (fun _ => True) v → I v.params → v.trueVals = some t →
    t.length = n → v.obsVals = some o → o.length = n →
    ∃ l, c.luminosity v = .ok l ∧ l.length = n ∧ ∀ x ∈ l, goodL x

/-- Samplers that can be drawn: finitely deep dependencies, code that works on what it is owed,
selectors that can be drawn, dependencies marked as secondaries. -/
structure Spec.Drawable (e : SurveyEnv F G) (roots : List Nat) (rank : Nat → Nat)
    (P : Nat → Selector F G → Prop) (I : Nat → Obj F → Prop) (goodD goodL : F → Prop)
    (need : Nat → Bool) (h : Heap F G) : Prop where
  ranked : ∀ i ∈ roots, Ranked h.children rank i
  frames : ∀ i ∈ roots, rank i < e.frames
  code : ∀ j, ReachFrom h roots j → ∀ n,
    WellBehaved (e.world.code j) n (h.samplers j).isObserved (I j)
      (Sees n (GoodPos goodD n) (Lit goodL n (need j)))
  selection : ∀ j, ReachFrom h roots j → ∀ n,
    Selectable e.world n (P (h.samplers j).selector) (HasMask n)
  secondary : ∀ j, ReachFrom h roots j → ∀ c ∈ h.children j, (h.samplers c).isSecondary = true

/-- A selector that can be drawn once `data` has been set. -/
def Spec.CanSelect (w : World F G) (P : Selector F G → Prop) (n : Nat) (setData : SelData F → SelData F)
    (good : List Bool → Prop) : Prop :=
  ∀ st : SelSt F G, P st.sel → ∃ st' m, selDraw w.sel w.half w.ninety w.showProgress n
    { st with sel := { st.sel with data := setData st.sel.data } } = .ok () st' ∧
    st'.sel.selection = some m ∧ m.length = n ∧ good m

/-- A configuration of working parts that was not used since it was made or reset. -/
structure Spec.Configured (e : SurveyEnv F G) (y : Synth F) (a : SurveyArgs F) (s : SurvSt F G)
    (rank : Nat → Nat) (P : Nat → Selector F G → Prop) (I : Nat → Obj F → Prop)
    (J K : Obj F → Prop) (goodD goodL goodX : F → Prop) (need : Nat → Bool) : Prop where
  /-- the seed is accepted -/
  seed : ∀ g, ∃ g', e.seed y.seed g = .ok g'
  places : Places e.spatial a.normalize J goodD
  spParams : J s.sp.params
  /-- the number of objects is given or can be drawn -/
  counts : a.nSamples = none → ∀ o, J o → ∃ N o', e.spatial.count a.normalize o = .ok N o' ∧
    J o' ∧ ∀ g, ∃ n g', e.poisson N g = (.ok n, g')
  /-- a luminosity distribution works -/
  shines : y.derived = none → y.lumName ≠ none → Shines e.lum K goodL ∧ K s.lum.params
  /-- a derived luminosity sampler works -/
  derives : ∀ d, y.derived = some d → Derives (e.world.code d) (I d) goodD goodL
  /-- fluxes can be computed, and noise keeps them finite -/
  fluxes : ∀ l d, l.length = d.length → (∀ x ∈ l, goodL x) → (∀ x ∈ d, goodD x) →
    ∃ f, e.spatial.transform l d = .ok f ∧ f.length = l.length ∧ ∀ x ∈ f, goodX x
  noise : ∀ sg, a.fluxSigma = some sg → e.validScale sg = true ∧ ∀ x g, goodX x →
    e.isFinite (e.add ((if a.log10Draw then e.log10 else e.ln) x) (e.normal sg g).1) = true
  /-- the samplers work -/
  samplers : Drawable e y.roots rank P I goodD goodL need s.heap
  wellFormed : WellFormed y.roots s.heap
  own : OwnSelectors y s.heap
  /-- only attached samplers and their direct dependencies that say so need luminosities -/
  needs : ∀ kv ∈ y.aux, ∀ j, Reach s.heap.children kv.2 j → need j = true →
    j = kv.2 ∨ (j ∈ s.heap.children kv.2 ∧ (s.heap.samplers j).usesLuminosity = true)
  derivedNeeds : ∀ d, y.derived = some d → ∀ j, Reach s.heap.children d j → need j = false
  /-- attached samplers are not secondaries of others -/
  primary : ∀ kv ∈ y.aux, (s.heap.samplers kv.2).isSecondary = false
  /-- dependencies of dependencies do not use the distance (`C44_violated_nested`) -/
  flat : ∀ i, ReachFrom s.heap y.roots i → ∀ c ∈ s.heap.children i, ∀ d ∈ s.heap.children c,
    (s.heap.samplers d).usesDistance = false
  /-- no sampler has the name of a property of populations -/
  names : ∀ j, ReachFrom s.heap y.roots j → (s.heap.samplers j).name ∉ readOnlyNames
  /-- nothing was drawn before -/
  unsampled : ∀ j, (s.heap.samplers j).isSampled = false
  selParams : (∀ q, P q (s.heap.selectors q)) ∧ ∀ j, I j (s.heap.samplers j).params
  unselected : (s.heap.selectors y.fluxSel).isSampled = false ∧
    (s.heap.selectors y.distSel).isSampled = false ∧
    ∀ q, y.spatSel = some q → (s.heap.selectors q).isSampled = false
  fluxSel : ∀ n f, f.length = n → CanSelect e.world (P y.fluxSel) n
    (fun d => { d with flux := some f }) fun _ => True
  distSel : ∀ n, CanSelect e.world (P y.distSel) n id fun m => 0 < n → true ∈ m
  spatSel : ∀ q, y.spatSel = some q → (s.heap.selectors q).kind.isSpatial = true ∧
    ∀ n v, GoodPos goodD n v → CanSelect e.world (P q) n (fun d => { d with
      spatial := some { distances := v.distance, galB := e.spatial.galB v.theta v.phi } })
      fun _ => True
  spaces : ∀ p ∈ y.modelSpaces, p.2.length = y.nModel
  dict : ∀ t, ∃ p, e.toDict y t = .ok p

/-! ### Plumbing -/

theorem onSpatial_of_ok {α : Type} {m : Py (SpSt F G) α} {s : SurvSt F G} {b : α} {t : SpSt F G}
    (h : m { sp := s.sp, rng := s.heap.rng } = .ok b t) :
    onSpatial m s = .ok b { s with sp := t.sp, heap := { s.heap with rng := t.rng } } := by
  unfold onSpatial; rw [h]

theorem onLum_of_ok {α : Type} {m : Py (LumSt F G) α} {s : SurvSt F G} {b : α} {t : LumSt F G}
    (h : m { lum := s.lum, rng := s.heap.rng } = .ok b t) :
    onLum m s = .ok b { s with lum := t.lum, heap := { s.heap with rng := t.rng } } := by
  unfold onLum; rw [h]

theorem onHeap_of_ok {α : Type} {m : Py (Heap F G) α} {s : SurvSt F G} {b : α} {t : Heap F G}
    (h : m s.heap = .ok b t) : onHeap m s = .ok b { s with heap := t } := by
  unfold onHeap; rw [h]

theorem onRng_of_ok {α : Type} {f : G → Except Err α × G} {s : SurvSt F G} {b : α} {g : G}
    (h : f s.heap.rng = (.ok b, g)) : onRng f s = .ok b { s with heap := { s.heap with rng := g } } := by
  unfold onRng; rw [h]

theorem liftE_of_ok {σ α : Type} {x : Except Err α} {b : α} (s : σ) (h : x = .ok b) :
    (liftE x : Py σ α) s = .ok b s := by
  rw [h]; rfl

theorem inPlace_of_length {α : Type} (f : α → α → α) {l m : List α} (h : l.length = m.length) :
    inPlace f l m = .ok (List.zipWith f l m) := by
  unfold inPlace; rw [if_pos h]

theorem Spec.Ready.of_prepared {n : Nat} {P : Nat → Selector F G → Prop}
    {M : Option (List Bool) → Prop} {I : Nat → Obj F → Prop} {h h' : Heap F G}
    (r : Ready n P M I h) (p : Prepared h h') : Ready n P M I h' := by
  refine ⟨fun q => by rw [p.selectors]; exact r.sel q, fun j => ?_, fun j => ?_⟩
  · obtain ⟨l, sp, hj⟩ := p.samplers j
    rw [hj]; exact r.params j
  · obtain ⟨l, sp, hj⟩ := p.samplers j
    rw [hj, p.selectors]; exact r.done j

theorem Spec.Drawable.of_ident {e : SurveyEnv F G} {roots : List Nat} {rank : Nat → Nat}
    {P : Nat → Selector F G → Prop} {I : Nat → Obj F → Prop} {goodD goodL : F → Prop}
    {need : Nat → Bool} {h h' : Heap F G} (d : Drawable e roots rank P I goodD goodL need h)
    (hi : ∀ j, (h'.samplers j).ident = (h.samplers j).ident) :
    Drawable e roots rank P I goodD goodL need h' := by
  have hc : h'.children = h.children := by
    funext i; simp only [Heap.children, ident_secondaries (hi i)]
  refine ⟨by rw [hc]; exact d.ranked, d.frames, ?_, ?_, ?_⟩
  · intro j hj n
    rw [ident_isObserved (hi j)]
    exact d.code j (by simpa only [ReachFrom, hc] using hj) n
  · intro j hj n
    rw [ident_selector (hi j)]
    exact d.selection j (by simpa only [ReachFrom, hc] using hj) n
  · intro j hj c hcm
    rw [hc] at hcm
    rw [ident_isSecondary (hi c)]
    exact d.secondary j (by simpa only [ReachFrom, hc] using hj) c hcm

theorem samplerDraw_ident {w : World F G} {k i n : Nat} {h h' : Heap F G}
    (hk : samplerDraw w k i n h = .ok () h') (j : Nat) :
    (h'.samplers j).ident = (h.samplers j).ident := by
  have fr := samplerDraw_fr w n k i h
  rw [hk] at fr
  exact ident_of_static (fr.static j)

/-! ### The stages return -/

section stages
variable {e : SurveyEnv F G} {y : Synth F} {a : SurveyArgs F} {s : SurvSt F G} {rank : Nat → Nat}
  {P : Nat → Selector F G → Prop} {I : Nat → Obj F → Prop} {J K : Obj F → Prop}
  {goodD goodL goodX : F → Prop} {need : Nat → Bool}

theorem reseed_returns (h : ∀ g, ∃ g', e.seed y.seed g = .ok g') (t : SurvSt F G) :
    ∃ t', reseed e y.seed t = .ok () t' ∧ t'.sp = t.sp ∧ t'.lum = t.lum := by
  obtain ⟨g', hg⟩ := h t.heap.rng
  exact ⟨_, onRng_of_ok (b := ()) (g := g') (by rw [hg]), rfl, rfl⟩

theorem countObjects_returns (c : Configured e y a s rank P I J K goodD goodL goodX need)
    (t : SurvSt F G) (hJ : J t.sp.params) :
    ∃ n t', countObjects e a.nSamples a.normalize t = .ok n t' ∧ J t'.sp.params ∧
      t'.lum = t.lum := by
  cases hn : a.nSamples with
  | some n => exact ⟨n, t, rfl, hJ, rfl⟩
  | none =>
    obtain ⟨N, o', h1, h2, h3⟩ := c.counts hn _ hJ
    obtain ⟨n, g', h4⟩ := h3 t.heap.rng
    have k1 : onSpatial (onParams (e.spatial.count a.normalize)) t =
        .ok N { t with sp := { t.sp with params := o' } } := by
      have : onParams (e.spatial.count a.normalize) { sp := t.sp, rng := t.heap.rng } =
          .ok N { sp := { t.sp with params := o' }, rng := t.heap.rng } := by
        simp only [onParams, h1]
      rw [onSpatial_of_ok this]
    have k2 : countObjects e none a.normalize t = .ok n
        ⟨{ t.heap with rng := g' }, { t.sp with params := o' }, t.lum, t.graph⟩ := by
      unfold countObjects
      exact (bind_of_ok k1).trans (onRng_of_ok (g := g') h4)
    exact ⟨n, _, k2, h2, rfl⟩

theorem drawPositions_returns (c : Configured e y a s rank P I J K goodD goodL goodX need)
    (t : SurvSt F G) (n : Nat) (hJ : J t.sp.params) :
    ∃ v p t', drawPositions e n a.normalize t = .ok (v, p) t' ∧ J t'.sp.params ∧
      GoodPos goodD n v ∧ p.length = n ∧ t'.lum = t.lum := by
  obtain ⟨t1, d, p, h1, h2, h3, h4, h5, h6, h7⟩ :=
    c.places.distances n { sp := t.sp, rng := t.heap.rng } hJ
  have k1 := onSpatial_of_ok (s := t) h1
  obtain ⟨t2, v, g1, g2, g3, g4, g5, g6⟩ := c.places.sky n { sp := t1.sp, rng := t1.rng } d h2 h3 h4 h5
  have k2 := onSpatial_of_ok (s := { t with sp := t1.sp, heap := { t.heap with rng := t1.rng } }) g1
  have k : drawPositions e n a.normalize t = .ok (v, List.zipWith e.mul (List.replicate n 1) p)
      { t with sp := t2.sp, heap := { t.heap with rng := t2.rng } } := by
    unfold drawPositions
    have k3 : mulProb e (List.replicate n 1) t1.sp.probability =
        .ok (List.zipWith e.mul (List.replicate n 1) p) := by
      simp only [mulProb, h6, optArray]
      exact inPlace_of_length _ (by simp [h7])
    rw [bind_of_ok k1, bind_of_ok (get_apply _), bind_of_ok (liftE_of_ok _ k3), bind_of_ok k2]
    simp only [bind_apply, spatialValues, g3, g4, g5]
    rfl
  exact ⟨v, _, _, k, g2, g6, by simp [h7], rfl⟩

/-- What holds of the heap while samplers are being drawn. -/
structure DrawInv (n : Nat) (P : Nat → Selector F G → Prop) (I : Nat → Obj F → Prop)
    (h0 h : Heap F G) : Prop where
  ready : Ready n P (HasMask n) I h
  ident : ∀ j, (h.samplers j).ident = (h0.samplers j).ident

theorem DrawInv.children {n : Nat} {h0 h : Heap F G} (d : DrawInv n P I h0 h) :
    h.children = h0.children := by
  funext i; simp only [Heap.children, ident_secondaries (d.ident i)]

theorem DrawInv.prepared {n : Nat} {h0 h h' : Heap F G} (d : DrawInv n P I h0 h)
    (p : Prepared h h') : DrawInv n P I h0 h' :=
  ⟨d.ready.of_prepared p, fun j => (p.ident j).trans (d.ident j)⟩

/-- One draw. -/
theorem draw_returns (c : Configured e y a s rank P I J K goodD goodL goodX need)
    {n i : Nat} {h : Heap F G} (d : DrawInv n P I s.heap h) (hi : i ∈ y.roots) (v : Spatial F)
    (hv : GoodPos goodD n v) (hsp : (h.samplers i).spatial = some v)
    (hl : ∀ j, Reach s.heap.children i j → Lit goodL n (need j) (h.samplers j).luminosity) :
    ∃ h', samplerDraw e.world e.frames i n h = .ok () h' ∧ DrawInv n P I s.heap h' ∧
      h'.sampled i = true ∧ (h'.samplers i).spatial = some v := by
  have dr := c.samplers.of_ident d.ident
  obtain ⟨h', h1, h2, h3, h4⟩ := C12_draw_returns e.world n rank P (HasMask n) I (GoodPos goodD n)
    (fun j => Lit goodL n (need j)) e.frames i h (dr.ranked i hi) (dr.frames i hi)
    (fun j hj => ⟨dr.code j ⟨i, hi, hj⟩ n, hl j (by rw [← d.children]; exact hj),
      dr.selection j ⟨i, hi, hj⟩ n, dr.secondary j ⟨i, hi, hj⟩⟩) ⟨v, hsp, hv⟩ d.ready
  exact ⟨h', h1, ⟨h2, fun j => (samplerDraw_ident h1 j).trans (d.ident j)⟩, h3, h4.trans hsp⟩

theorem secFold_returns (h : Heap F G) (k : Nat) (todo : Dict Nat) (st : Storage F)
    (hk : ∀ p ∈ todo, ∃ r, secProps h k p.2 = .ok r) :
    ∃ b, todo.foldlM (fun acc p => do
      let r ← secProps h k p.2
      pure (Storage.add acc r)) st = .ok b := by
  induction todo generalizing st with
  | nil => exact ⟨st, rfl⟩
  | cons p todo ih =>
    obtain ⟨r, hr⟩ := hk p (by simp)
    obtain ⟨b, hb⟩ := ih (Storage.add st r) (fun q hq => hk q (by simp [hq]))
    exact ⟨b, by rw [foldlM_except_cons, hr]; exact hb⟩

theorem derivedLuminosity_returns (c : Configured e y a s rank P I J K goodD goodL goodX need)
    {n d : Nat} {t : SurvSt F G} (iv : DrawInv n P I s.heap t.heap)
    (hdc : DownClosed t.heap.children t.heap.sampled) (hd : y.derived = some d) (v : Spatial F)
    (hv : GoodPos goodD n v) (loc : Loc F) :
    ∃ l loc' t', derivedLuminosity e n v d loc t = .ok (l, loc') t' ∧
      DrawInv n P I s.heap t'.heap ∧ l.length = n ∧ (∀ x ∈ l, goodL x) ∧
      loc'.prob = loc.prob ∧ t'.sp = t.sp := by
  have hroot : d ∈ y.roots := by simp [Synth.roots, hd]
  have k1 : onHeap (setSpatialValues d v) t = .ok () { t with
      heap := t.heap.modSampler d fun s => { s with spatial := some v } } :=
    onHeap_of_ok rfl
  have p1 := Prepared.modSpatial t.heap d v
  obtain ⟨h2, r2, iv2, m2, sp2⟩ := draw_returns c (iv.prepared p1) hroot v hv (by simp)
    (fun j hj hn => by rw [c.derivedNeeds d hd j hj] at hn; cases hn)
  have k2 : onHeap (samplerDraw e.world e.frames d n) { t with
      heap := t.heap.modSampler d fun s => { s with spatial := some v } } =
      .ok () { t with heap := h2 } := onHeap_of_ok r2
  have hdc2 : DownClosed h2.children h2.sampled := by
    have := samplerDraw_downClosed e.world n e.frames d _
      (by rw [p1.children, p1.sampled]; exact hdc)
    rw [r2] at this; exact this
  obtain ⟨a1, a2, -, -⟩ := iv2.ready.done d m2
  obtain ⟨tv, ht, htl⟩ := lenIs_some a1
  obtain ⟨ov, ho, hol⟩ := lenIs_some a2
  obtain ⟨l, l1, l2, l3⟩ := c.derives d hd n (h2.view d) tv ov
    ⟨⟨v, sp2, hv⟩, trivial, by
      intro p hp
      obtain ⟨q, hq, rfl⟩ := List.mem_map.1 hp
      obtain ⟨b1, b2, -⟩ := iv2.ready.done q.2 (hdc2 d m2 q.2 (List.mem_map.2 ⟨q, hq, rfl⟩))
      obtain ⟨x, hx, hxl⟩ := lenIs_some b1
      obtain ⟨z, hz, hzl⟩ := lenIs_some b2
      exact ⟨x, z, by simp only [hx, hz], hxl, hzl⟩⟩
    (iv2.ready.params d) ht htl ho hol
  have dr := c.samplers.of_ident iv2.ident
  obtain ⟨q, hq⟩ := secFold_returns h2 e.frames (h2.samplers d).secondaries
    (Dict.set loc.auxq (h2.samplers d).name
      { name := (h2.samplers d).name, trueVals := (h2.samplers d).trueVals,
        obsVals := (h2.samplers d).obsVals, selection := (h2.samplers d).selector,
        prob := (h2.samplers d).probability })
    (fun p hp => by
      have hc : p.2 ∈ h2.children d := List.mem_map.2 ⟨p, hp, rfl⟩
      have hr := dr.ranked d hroot
      refine secProps_returns h2 rank e.frames p.2 (hr.child hc) ?_
      have h1 := hr d (.here _) p.2 hc
      have h2 := dr.frames d hroot
      omega)
  refine ⟨l, { loc with auxq := q, truth := (secTruths h2 d (Dict.set loc.truth (h2.samplers d).name (truthOf (h2.samplers d).params))) },
    { t with heap := h2 }, ?_, iv2, l2, l3, rfl, rfl⟩
  · unfold derivedLuminosity
    rw [bind_of_ok k1, bind_of_ok k2, bind_of_ok (get_apply _)]
    simp only [a1, a2]
    refine (bind_of_ok (a := ()) (s1 := { t with heap := h2 }) rfl).trans ?_
    refine (bind_of_ok (a := ()) (s1 := { t with heap := h2 }) rfl).trans ?_
    refine (bind_of_ok (liftE_of_ok _ l1)).trans ?_
    exact (bind_of_ok (liftE_of_ok _ hq)).trans rfl

theorem distLuminosity_returns (c : Configured e y a s rank P I J K goodD goodL goodX need)
    {n : Nat} {t : SurvSt F G} (h1 : y.derived = none) (h2 : y.lumName ≠ none)
    (hK : K t.lum.params) (nm : String) (loc : Loc F) (hp : loc.prob.length = n) :
    ∃ l loc' t', distLuminosity e n nm loc t = .ok (l, loc') t' ∧ SameHeap t.heap t'.heap ∧
      l.length = n ∧ (∀ x ∈ l, goodL x) ∧ loc'.prob.length = n ∧ t'.sp = t.sp := by
  obtain ⟨sh, -⟩ := c.shines h1 h2
  obtain ⟨l, t1, d1, d2, d3, d4⟩ := sh.draws n { lum := t.lum, rng := t.heap.rng } hK
  obtain ⟨p, o', f1, f2⟩ := sh.density l t1.lum.params d2 d4
  have k1 := onLum_of_ok (s := t) d1
  have k2 : onLum (computeLumProbability e.lum l)
      { t with lum := t1.lum, heap := { t.heap with rng := t1.rng } } =
      .ok () { t with lum := { params := o', probability := some p },
                      heap := { t.heap with rng := t1.rng } } := by
    refine onLum_of_ok (t := { lum := { params := o', probability := some p }, rng := t1.rng }) ?_
    simp only [computeLumProbability, f1]
  have k3 : mulProb e loc.prob (some p) = .ok (List.zipWith e.mul loc.prob p) := by
    simp only [mulProb, optArray]
    exact inPlace_of_length _ (by rw [hp, f2, d3])
  have k : distLuminosity e n nm loc t = .ok (l, { loc with prob := (List.zipWith e.mul loc.prob p), truth := Dict.set loc.truth nm (truthOf o') })
      { t with lum := { params := o', probability := some p },
               heap := { t.heap with rng := t1.rng } } := by
    unfold distLuminosity
    rw [bind_of_ok k1, bind_of_ok k2, bind_of_ok (get_apply _)]
    exact (bind_of_ok (liftE_of_ok _ k3)).trans rfl
  refine ⟨l, _, _, k, rfl, d3, d4, by simp [hp, f2, d3], rfl⟩

theorem prepareSecs_returns (lums : List F) (v : Spatial F) (ps : Dict Nat) (h : Heap F G) :
    ∃ h', forEach ps (prepareSec lums v) h = .ok () h' := by
  induction ps generalizing h with
  | nil => exact ⟨h, rfl⟩
  | cons p ps ih =>
    obtain ⟨h1, e1, -⟩ := prepareSec_apply lums v p h
    obtain ⟨h2, e2⟩ := ih h1
    exact ⟨h2, by rw [forEach_cons, bind_of_ok e1]; exact e2⟩

theorem prepareAux_returns (lums : List F) (v : Spatial F) (i : Nat) (h : Heap F G) :
    ∃ h', prepareAux lums v i h = .ok () h' := by
  obtain ⟨h', hk⟩ := prepareSecs_returns lums v
    (((h.modSampler i fun s => { s with luminosity := some lums }).modSampler i
      fun s => { s with spatial := some v }).samplers i).secondaries
    ((h.modSampler i fun s => { s with luminosity := some lums }).modSampler i
      fun s => { s with spatial := some v })
  exact ⟨h', hk⟩

theorem auxStep_returns (c : Configured e y a s rank P I J K goodD goodL goodX need)
    {n : Nat} {t : SurvSt F G} (iv : DrawInv n P I s.heap t.heap) (v : Spatial F)
    (hv : GoodPos goodD n v) (lums : List F) (hn : lums.length = n) (hg : ∀ x ∈ lums, goodL x)
    (kv : String × Nat) (hkv : kv ∈ y.aux) (loc : Loc F) :
    ∃ loc' t', auxStep e n lums v loc kv t = .ok loc' t' ∧ DrawInv n P I s.heap t'.heap ∧
      t'.sp = t.sp := by
  have hroot : kv.2 ∈ y.roots := by
    simp only [Synth.roots, List.mem_append]
    exact .inr (List.mem_map.2 ⟨kv, hkv, rfl⟩)
  obtain ⟨h1, k1⟩ := prepareAux_returns lums v kv.2 t.heap
  obtain ⟨p1, p2, p3, p4⟩ := prepareAux_ok k1
  have iv1 := iv.prepared p1.prep
  obtain ⟨h2, r2, iv2, m2, -⟩ := draw_returns c iv1 hroot v hv p3 (by
    intro j hj hneed
    refine ⟨lums, ?_, hn, hg⟩
    rcases c.needs kv hkv j hj hneed with rfl | ⟨hc, hu⟩
    · exact p2
    · rw [← iv.children] at hc
      obtain ⟨p, hp, rfl⟩ := List.mem_map.1 hc
      exact p4 p hp (by rw [ident_usesLuminosity (iv.ident p.2)]; exact hu))
  obtain ⟨a1, a2, -, -⟩ := iv2.ready.done kv.2 m2
  have dr := c.samplers.of_ident iv2.ident
  obtain ⟨r, hr⟩ := secProps_returns h2 rank e.frames kv.2 (dr.ranked _ hroot) (dr.frames _ hroot)
  have hprim : (t.heap.samplers kv.2).isSecondary = false := by
    rw [ident_isSecondary (iv.ident kv.2)]; exact c.primary kv hkv
  have k : auxStep e n lums v loc kv t = .ok { loc with auxq := (Storage.add loc.auxq r), truth := (secTruths h2 kv.2 (Dict.set loc.truth (h2.samplers kv.2).name (truthOf (h2.samplers kv.2).params))) }
      { t with heap := h2 } := by
    unfold auxStep
    rw [bind_of_ok (get_apply _)]
    simp only [hprim]
    refine (bind_of_ok (a := ()) (s1 := t) rfl).trans ?_
    rw [bind_of_ok (onHeap_of_ok k1)]
    have k2 : onHeap (samplerDraw e.world e.frames kv.2 n) { t with heap := h1 } =
      .ok () { t with heap := h2 } := onHeap_of_ok r2
    rw [bind_of_ok k2, bind_of_ok (get_apply _)]
    simp only [a1, a2]
    refine (bind_of_ok (a := ()) (s1 := { t with heap := h2 }) rfl).trans ?_
    refine (bind_of_ok (a := ()) (s1 := { t with heap := h2 }) rfl).trans ?_
    exact (bind_of_ok (liftE_of_ok _ hr)).trans rfl
  exact ⟨_, _, k, iv2, rfl⟩

theorem auxFold_returns (c : Configured e y a s rank P I J K goodD goodL goodX need)
    {n : Nat} (v : Spatial F) (hv : GoodPos goodD n v) (lums : List F) (hn : lums.length = n)
    (hg : ∀ x ∈ lums, goodL x) (kvs : Dict Nat) (hsub : ∀ kv ∈ kvs, kv ∈ y.aux) (loc : Loc F)
    (t : SurvSt F G) (iv : DrawInv n P I s.heap t.heap) :
    ∃ loc' t', foldPy kvs loc (auxStep e n lums v) t = .ok loc' t' ∧
      DrawInv n P I s.heap t'.heap ∧ t'.sp = t.sp := by
  induction kvs generalizing loc t with
  | nil => exact ⟨loc, t, rfl, iv, rfl⟩
  | cons kv kvs ih =>
    obtain ⟨l1, t1, k1, iv1, e1⟩ := auxStep_returns c iv v hv lums hn hg kv (hsub kv (by simp)) loc
    obtain ⟨l2, t2, k2, iv2, e2⟩ := ih (fun q hq => hsub q (by simp [hq])) l1 t1 iv1
    exact ⟨l2, t2, by rw [foldPy_cons, bind_of_ok k1]; exact k2, iv2, e2.trans e1⟩

theorem mem_of_draws {one : G → F × G} {g g' : G} {xs : List F} (d : Draws one g xs g') :
    ∀ x ∈ xs, ∃ g0, x = (one g0).1 := by
  induction d with
  | nil => simp
  | cons h1 _ ih =>
    intro z hz
    rcases List.mem_cons.1 hz with rfl | hz
    · exact ⟨_, by rw [h1]⟩
    · exact ih z hz

theorem noisyFlux_returns {n : Nat} (sg : F) (fwd bwd : F → F) (fluxes : List F) (t : SurvSt F G)
    (h1 : e.validScale sg = true) (h2 : ∀ x g, goodX x → e.isFinite (e.add (fwd x) (e.normal sg g).1) = true)
    (h3 : fluxes.length = n) (h4 : ∀ x ∈ fluxes, goodX x) :
    ∃ o t', noisyFlux e n sg fwd bwd fluxes t = .ok o t' ∧ o.length = n := by
  obtain ⟨hd, hl⟩ := normalMany_draws e sg n t.heap.rng
  have k1 : onRng (F := F) (fun g => ((.ok (normalMany e sg n g).1 : Except Err (List F)), (normalMany e sg n g).2)) t =
      .ok (normalMany e sg n t.heap.rng).1
        { t with heap := { t.heap with rng := (normalMany e sg n t.heap.rng).2 } } :=
    onRng_of_ok rfl
  have k2 : bcast e.add (fluxes.map fwd) (normalMany e sg n t.heap.rng).1 =
      .ok (List.zipWith e.add (fluxes.map fwd) (normalMany e sg n t.heap.rng).1) := by
    unfold bcast; rw [if_pos (by simp [h3, hl])]
  have k3 : (List.zipWith e.add (fluxes.map fwd) (normalMany e sg n t.heap.rng).1).all e.isFinite = true := by
    rw [List.all_eq_true]
    intro z hz
    obtain ⟨i, hi, rfl⟩ := List.mem_iff_getElem.1 hz
    rw [List.getElem_zipWith, List.getElem_map]
    obtain ⟨g0, hg0⟩ := mem_of_draws hd _ (List.getElem_mem (by simp at hi; omega : i < (normalMany e sg n t.heap.rng).1.length))
    rw [hg0]
    exact h2 _ _ (h4 _ (List.getElem_mem _))
  refine ⟨(List.zipWith e.add (fluxes.map fwd) (normalMany e sg n t.heap.rng).1).map bwd,
    { t with heap := { t.heap with rng := (normalMany e sg n t.heap.rng).2 } }, ?_, by simp [h3, hl]⟩
  unfold noisyFlux
  simp only [h1]
  refine (bind_of_ok k1).trans ?_
  refine (bind_of_ok (liftE_of_ok _ k2)).trans ?_
  simp only [k3]
  rfl

theorem observeFlux_returns (c : Configured e y a s rank P I J K goodD goodL goodX need)
    {n : Nat} (fluxes : List F) (t : SurvSt F G) (h3 : fluxes.length = n) (h4 : ∀ x ∈ fluxes, goodX x) :
    ∃ o sg t', observeFlux e y n a.fluxSigma a.log10Draw fluxes t = .ok (o, sg) t' ∧ o.length = n := by
  unfold observeFlux
  rw [bind_of_ok (get_apply _)]
  cases hu : (t.heap.selectors y.fluxSel).kind.isUnity with
  | true => exact ⟨_, _, t, rfl, h3⟩
  | false =>
    cases hs : a.fluxSigma with
    | none => exact ⟨_, _, t, rfl, h3⟩
    | some sg =>
      obtain ⟨hv, hf⟩ := c.noise sg hs
      cases hl : a.log10Draw with
      | true =>
        rw [hl] at hf
        obtain ⟨o, t', k, ho⟩ := noisyFlux_returns (n := n) (e := e) sg e.log10 e.pow10 fluxes t hv hf h3 h4
        exact ⟨o, sg, t', (bind_of_ok k).trans rfl, ho⟩
      | false =>
        rw [hl] at hf
        obtain ⟨o, t', k, ho⟩ := noisyFlux_returns (n := n) (e := e) sg e.ln e.exp fluxes t hv hf h3 h4
        exact ⟨o, sg, t', (bind_of_ok k).trans rfl, ho⟩

theorem drawLuminosities_returns (c : Configured e y a s rank P I J K goodD goodL goodX need)
    {n : Nat} {t : SurvSt F G} (hsrc : y.derived ≠ none ∨ y.lumName ≠ none)
    (iv : DrawInv n P I s.heap t.heap)
    (hdc : DownClosed t.heap.children t.heap.sampled) (hlum : t.lum = s.lum) (v : Spatial F)
    (hv : GoodPos goodD n v) (loc : Loc F) (hp : loc.prob.length = n) :
    ∃ l loc' t', drawLuminosities e y n v loc t = .ok (l, loc') t' ∧
      DrawInv n P I s.heap t'.heap ∧ l.length = n ∧ (∀ x ∈ l, goodL x) ∧
      loc'.prob.length = n ∧ t'.sp = t.sp := by
  cases hd : y.derived with
  | some d =>
    obtain ⟨l, loc', t', k1, k2, k3, k4, k5, k6⟩ := derivedLuminosity_returns c iv hdc hd v hv loc
    exact ⟨l, loc', t', by simp only [drawLuminosities, hd]; exact k1, k2, k3, k4,
      by rw [k5]; exact hp, k6⟩
  | none =>
    cases hl : y.lumName with
    | none => rcases hsrc with h | h
              · exact absurd hd h
              · exact absurd hl h
    | some nm =>
      have hne : y.lumName ≠ none := by rw [hl]; simp
      obtain ⟨l, loc', t', k1, k2, k3, k4, k5, k6⟩ := distLuminosity_returns (t := t) c hd hne
        (by rw [hlum]; exact (c.shines hd hne).2) nm loc hp
      exact ⟨l, loc', t', by simp only [drawLuminosities, hd, hl]; exact k1, iv.prepared k2.prepared,
        k3, k4, k5, k6⟩

/-- What the samplers left behind. -/
structure AuxDone (e : SurveyEnv F G) (y : Synth F) (n : Nat) (s t : SurvSt F G) (st : Storage F) :
    Prop where
  reports : Reports t.heap (ReachFrom s.heap y.roots) st
  sampled : ∀ j, ReachFrom s.heap y.roots j → t.heap.sampled j = true
  others : ∀ q, (∀ j, ReachFrom s.heap y.roots j → (s.heap.samplers j).selector ≠ q) →
    t.heap.selectors q = s.heap.selectors q

theorem aux_done {n : Nat} {v : Spatial F} {s3 s4 s5 : SurvSt F G} {loc0 loc1 loc : Loc F}
    {lums : List F} (h3 : SameHeap s.heap s3.heap) (h0 : loc0.auxq = [])
    (lumd : drawLuminosities e y n v loc0 s3 = .ok (lums, loc1) s4)
    (auxd : foldPy y.aux loc1 (auxStep e n lums v) s4 = .ok loc s5)
    (hw : WellFormed y.roots s.heap) (hd : DownClosed s.heap.children s.heap.sampled) :
    AuxDone e y n s s5 loc.auxq := by
  have p3 : Prepared s.heap s3.heap := h3.prepared
  have hw3 := hw.of_ident p3.ident
  have hd3 : DownClosed s3.heap.children s3.heap.sampled := by
    rw [p3.children, p3.sampled]; exact hd
  have key : ∃ T0, SEff e.world n v s3.heap s4.heap T0 ∧
      (∀ j, j ∈ T0.map Prod.fst → ReachFrom s.heap y.derived.toList j) ∧
      DownClosed s4.heap.children s4.heap.sampled ∧
      (∀ i ∈ y.derived.toList, s4.heap.sampled i = true) ∧
      Reports s4.heap (ReachFrom s4.heap y.derived.toList) loc1.auxq := by
    rcases drawLuminosities_ok lumd with ⟨d, hd', ⟨q⟩⟩ | ⟨name, hd', hl', ⟨q⟩⟩
    · obtain ⟨-, -, q3, q4, ⟨T0, q5, q6⟩, q7⟩ := q.eff
        (hw3.sub (by intro i hi; simp [Synth.roots, hd'] at hi ⊢; exact .inl hi)) hd3 h0
      refine ⟨T0, q5, ?_, q3, ?_, ?_⟩
      · intro j; rw [q6, p3.children, hd']; simp [ReachFrom]; exact fun x _ => x
      · intro i hi; rw [hd'] at hi; simp at hi; subst hi; exact q4
      · rw [hd']; exact q7
    · have p4 : Prepared s3.heap s4.heap :=
        ((onLum_heap q.drawn).trans (onLum_heap q.probd)).prepared
      refine ⟨[], SEff.of_prepared p4, ?_, ?_, ?_, ?_⟩
      · intro j; simp
      · rw [p4.children, p4.sampled]; exact hd3
      · rw [hd']; simp
      · rw [hd', q.loc_eq]
        show Reports _ _ loc0.auxq
        rw [h0]
        exact (reports_nil _).congr fun j => by simp [ReachFrom]
  obtain ⟨T0, a1, a2, a3, a4, a5⟩ := key
  have e34 : SEff e.world n v s.heap s4.heap T0 := by
    have := (SEff.of_prepared (w := e.world) (n := n) (v := v) p3).comp a1
    rwa [List.nil_append] at this
  have hch4 := e34.children_eq
  obtain ⟨b1, b2, b3, ⟨T1, b4, b5, b6, b7⟩, b8, b9⟩ := auxFold_eff y.aux y.derived.toList
    loc1 loc s4 s5 auxd (hw.of_ident e34.ident) a3 a4 a5
  have e5 : SEff e.world n v s.heap s5.heap (T0 ++ T1) := e34.comp b4
  have hroots : ∀ j, ReachFrom s.heap y.roots j ↔ ReachFrom s.heap y.derived.toList j ∨
        ReachFrom s.heap (y.aux.map Prod.snd) j := by
    intro j
    simp only [ReachFrom, Synth.roots, List.mem_append]
    constructor
    · rintro ⟨i, hi | hi, hr⟩
      · exact .inl ⟨i, hi, hr⟩
      · exact .inr ⟨i, hi, hr⟩
    · rintro (⟨i, hi, hr⟩ | ⟨i, hi, hr⟩)
      · exact ⟨i, .inl hi, hr⟩
      · exact ⟨i, .inr hi, hr⟩
  have down : ∀ (h : Heap F G) i j, DownClosed h.children h.sampled → Reach h.children i j →
      h.sampled i = true → h.sampled j = true := by
    intro h i j hdc hr
    induction hr with
    | here => exact id
    | step hc _ ih => exact fun hi => ih (hdc _ hi _ hc)
  refine ⟨?_, ?_, ?_⟩
  · refine b8.congr fun j => ?_
    simp only [ReachFrom, b4.children_eq, hch4, Synth.roots]
  · intro j hj
    rcases (hroots j).1 hj with ⟨i, hi, hr⟩ | hj
    · exact (b4.marks j).2 (.inl (down s4.heap i j a3 (by rw [hch4]; exact hr) (a4 i hi)))
    · cases hs : s4.heap.sampled j with
      | true => exact (b4.marks j).2 (.inl hs)
      | false => exact (b4.marks j).2 (.inr ((b5 j).2 ⟨by simpa only [ReachFrom, hch4] using hj, hs⟩))
  · intro q hq
    refine e5.selKeep q ?_
    intro x hx
    apply hq
    rcases List.mem_append.1 hx with hx | hx
    · exact (hroots _).2 (.inl (a2 _ (List.mem_map.2 ⟨x, hx, rfl⟩)))
    · have := ((b5 x.1).1 (List.mem_map.2 ⟨x, hx, rfl⟩)).1
      exact (hroots _).2 (.inr (by simpa only [ReachFrom, hch4] using this))

/-! ### Selections -/

theorem selectOn_returns {q n : Nat} {t : SurvSt F G} {good : List Bool → Prop}
    (hs : (t.heap.selectors q).isSampled = false)
    (hk : ∃ st' m, selDraw e.world.sel e.world.half e.world.ninety e.world.showProgress n
      { sel := t.heap.selectors q, rng := t.heap.rng } = .ok () st' ∧
      st'.sel.selection = some m ∧ m.length = n ∧ good m) :
    ∃ t' m, selectOn e q n t = .ok () t' ∧ (t'.heap.selectors q).selection = some m ∧
      m.length = n ∧ good m := by
  obtain ⟨st', m, h1, h2, h3, h4⟩ := hk
  have k : selSelect e.world.sel e.world.half e.world.ninety e.world.showProgress n
      { sel := t.heap.selectors q, rng := t.heap.rng } =
      .ok () { st' with sel := { st'.sel with isSampled := true } } := by
    rw [selSelect_apply]
    simp only [hs, Bool.false_eq_true, if_false, h1, h2]
  exact ⟨_, m, onHeap_of_ok (withSelector_of_ok k), by simp [Heap.modSelector, h2], h3, h4⟩

theorem add_returns {n : Nat} {x z : Selector F G} (hx : HasMask n x.selection)
    (hz : HasMask n z.selection) : ∃ r, x.add z = .ok r ∧ HasMask n r.selection := by
  obtain ⟨m, hm, hml⟩ := hx
  obtain ⟨m', hm', hml'⟩ := hz
  have k : x.add z = .ok { kind := .dummy, cls := "DummySelection", name := "dummy", selection := some (List.zipWith (· && ·) m m') } := by
    simp only [Selector.add, Selector.mask, hm, hm']
    show (logicalAnd m m' >>= _) = _
    rw [logicalAnd_of_length (by rw [hml, hml'])]
    rfl
  exact ⟨_, k, List.zipWith (· && ·) m m', rfl, by simp [hml, hml']⟩

theorem applyAux_returns {n : Nat} (t : SurvSt F G) (acc : Selector F G × List F)
    (ha : HasMask n acc.1.selection) (hp : acc.2.length = n) (kv : String × SecC F)
    (h1 : kv.2.prob.length = n) (h2 : HasMask n (t.heap.selectors kv.2.selection).selection) :
    ∃ r, applyAux e acc kv t = .ok r t ∧ HasMask n r.1.selection ∧ r.2.length = n := by
  unfold applyAux
  rw [bind_of_ok (get_apply _)]
  cases hu : (t.heap.selectors kv.2.selection).kind.isUnity with
  | true => exact ⟨acc, rfl, ha, hp⟩
  | false =>
    obtain ⟨x, hx, hxm⟩ := add_returns ha h2
    have k1 : inPlace e.mul acc.2 kv.2.prob = .ok (List.zipWith e.mul acc.2 kv.2.prob) :=
      inPlace_of_length _ (by rw [hp, h1])
    refine ⟨(x, List.zipWith e.mul acc.2 kv.2.prob), ?_, hxm, by simp [hp, h1]⟩
    refine (bind_of_ok (liftE_of_ok _ k1)).trans ?_
    exact (bind_of_ok (liftE_of_ok _ hx)).trans rfl

theorem applyAuxs_returns {n : Nat} (t : SurvSt F G) (st : Storage F)
    (h1 : ∀ kv ∈ st, kv.2.prob.length = n)
    (h2 : ∀ kv ∈ st, HasMask n (t.heap.selectors kv.2.selection).selection)
    (acc : Selector F G × List F) (ha : HasMask n acc.1.selection) (hp : acc.2.length = n) :
    ∃ r, foldPy st acc (applyAux e) t = .ok r t ∧ HasMask n r.1.selection ∧ r.2.length = n := by
  induction st generalizing acc with
  | nil => exact ⟨acc, rfl, ha, hp⟩
  | cons kv st ih =>
    obtain ⟨r, k1, k2, k3⟩ := applyAux_returns (e := e) t acc ha hp kv (h1 kv (by simp)) (h2 kv (by simp))
    obtain ⟨r', k4, k5, k6⟩ := ih (fun q hq => h1 q (by simp [hq])) (fun q hq => h2 q (by simp [hq])) r k2 k3
    exact ⟨r', by rw [foldPy_cons, bind_of_ok k1]; exact k4, k5, k6⟩

theorem mem_get? {α : Type} {d : Dict α} (hd : (Dict.keys d).Nodup) {k : String} {v : α}
    (h : (k, v) ∈ d) : Dict.get? d k = some v := by
  induction d with
  | nil => cases h
  | cons p d ih =>
    obtain ⟨k', v'⟩ := p
    rw [Dict.get?_cons]
    simp only [Dict.keys, List.map_cons, List.nodup_cons] at hd
    rcases List.mem_cons.1 h with h | h
    · cases h; simp
    · have : k' ≠ k := by
        rintro rfl
        exact hd.1 (List.mem_map.2 ⟨_, h, rfl⟩)
      rw [if_neg this]
      exact ih hd.2 h

/-- Every reported quantity comes from a drawn sampler. -/
theorem AuxDone.entry {n : Nat} {t : SurvSt F G} {st : Storage F} (d : AuxDone e y n s t st)
    (iv : DrawInv n P I s.heap t.heap) {kv : String × SecC F} (h : kv ∈ st) :
    ∃ j, ReachFrom s.heap y.roots j ∧ kv.1 = (s.heap.samplers j).name ∧
      (∃ x, kv.2.trueVals = some x ∧ x.length = n) ∧ (∃ x, kv.2.obsVals = some x ∧ x.length = n) ∧
      kv.2.prob.length = n ∧ kv.2.selection = (s.heap.samplers j).selector ∧
      HasMask n (t.heap.selectors (s.heap.samplers j).selector).selection := by
  obtain ⟨j, h1, h2, h3⟩ := (d.reports.iff kv.1 kv.2).1 (mem_get? d.reports.nodup h)
  obtain ⟨a1, a2, a3, a4⟩ := iv.ready.done j (d.sampled j h1)
  obtain ⟨tv, ht, htl⟩ := lenIs_some a1
  obtain ⟨ov, ho, hol⟩ := lenIs_some a2
  refine ⟨j, h1, by rw [← h2, ident_name (iv.ident j)], ⟨tv, by rw [h3]; exact ht, htl⟩,
    ⟨ov, by rw [h3]; exact ho, hol⟩, ?_, ?_, ?_⟩
  · rw [h3]
    show (Sampler.probability _).length = n
    unfold Sampler.probability
    cases hp : (t.heap.samplers j).prob with
    | some p => exact a3 p hp
    | none => simp only [ht, List.length_map, htl]
  · rw [h3]; exact ident_selector (iv.ident j)
  · rw [← ident_selector (iv.ident j)]; exact a4

theorem applySpatial_returns (c : Configured e y a s rank P I J K goodD goodL goodX need)
    {n : Nat} (v : Spatial F) (hv : GoodPos goodD n v) (t : SurvSt F G) (glob : Selector F G)
    (hg : HasMask n glob.selection) (hP : ∀ q, y.spatSel = some q → P q (t.heap.selectors q))
    (hsel : ∀ q, y.spatSel = some q → t.heap.selectors q = s.heap.selectors q) :
    ∃ g t', applySpatial e y n v glob t = .ok g t' ∧ HasMask n g.selection := by
  unfold applySpatial
  cases hq : y.spatSel with
  | none => exact ⟨glob, t, rfl, hg⟩
  | some q =>
    obtain ⟨h1, h2⟩ := c.spatSel q hq
    simp only
    rw [bind_of_ok (get_apply _), hsel q hq, h1]
    simp only [if_true]
    have k1 : onHeap (modify fun h : Heap F G => h.modSelector q fun c => { c with data := { c.data with
        spatial := some { distances := v.distance, galB := e.spatial.galB v.theta v.phi } } }) t =
      .ok () { t with heap := t.heap.modSelector q fun c => { c with data := { c.data with
        spatial := some { distances := v.distance, galB := e.spatial.galB v.theta v.phi } } } } :=
      onHeap_of_ok rfl
    refine Exists.imp (fun g => Exists.imp fun t' => And.imp_left fun hh =>
      (bind_of_ok k1).trans hh) ?_
    obtain ⟨t2, m, k2, k3, k4, -⟩ := selectOn_returns (e := e) (q := q) (n := n)
      (good := fun _ => True)
      (t := { t with heap := t.heap.modSelector q fun c => { c with data := { c.data with
        spatial := some { distances := v.distance, galB := e.spatial.galB v.theta v.phi } } } })
      (by simp [Heap.modSelector, hsel q hq, c.unselected.2.2 q hq])
      (by
        have := h2 n v hv { sel := t.heap.selectors q, rng := t.heap.rng } (hP q hq)
        simpa [Heap.modSelector] using this)
    obtain ⟨g, k5, k6⟩ := add_returns hg (z := t2.heap.selectors q) ⟨m, k3, k4⟩
    refine ⟨g, t2, ?_, k6⟩
    rw [bind_of_ok k2, bind_of_ok (get_apply _)]
    exact liftE_of_ok _ k5

theorem applySelections_returns (c : Configured e y a s rank P I J K goodD goodL goodX need)
    {n : Nat} (v : Spatial F) (hv : GoodPos goodD n v) {t : SurvSt F G} {loc : Loc F}
    (d : AuxDone e y n s t loc.auxq) (iv : DrawInv n P I s.heap t.heap) (fluxObs : List F)
    (hf : fluxObs.length = n) (hp : loc.prob.length = n) :
    ∃ r t', applySelections e y n v fluxObs loc t = .ok r t' ∧ HasMask n r.1.selection ∧
      r.2.length = n := by
  have hflux : t.heap.selectors y.fluxSel = s.heap.selectors y.fluxSel :=
    d.others _ fun j hj => c.own.flux j hj
  have k1 : onHeap (modify fun h : Heap F G => h.modSelector y.fluxSel fun c =>
      { c with data := { c.data with flux := some fluxObs } }) t =
    .ok () { t with heap := t.heap.modSelector y.fluxSel fun c =>
      { c with data := { c.data with flux := some fluxObs } } } := onHeap_of_ok rfl
  obtain ⟨t2, m, k2, k3, k4, -⟩ := selectOn_returns (e := e) (q := y.fluxSel) (n := n)
    (good := fun _ => True)
    (t := { t with heap := t.heap.modSelector y.fluxSel fun c =>
      { c with data := { c.data with flux := some fluxObs } } })
    (by simp [Heap.modSelector, hflux, c.unselected.1])
    (by
      have := c.fluxSel n fluxObs hf { sel := t.heap.selectors y.fluxSel, rng := t.heap.rng }
        (iv.ready.sel _)
      simpa [Heap.modSelector] using this)
  have hoth : ∀ q, q ≠ y.fluxSel → t2.heap.selectors q = t.heap.selectors q := by
    intro q hq
    rw [(selectOn_ok k2).others q hq]
    simp [Heap.modSelector, hq]
  obtain ⟨r, k5, k6, k7⟩ := applyAuxs_returns (e := e) (n := n) t2 loc.auxq
    (fun kv hkv => by obtain ⟨j, -, -, -, -, h, -⟩ := d.entry iv hkv; exact h)
    (fun kv hkv => by
      obtain ⟨j, h1, -, -, -, -, h2, h3⟩ := d.entry iv hkv
      rw [h2, hoth _ (c.own.flux j h1)]; exact h3)
    ((drawnUnity "total auxiliary selection" n : Selector F G), loc.prob)
    ⟨_, rfl, by simp⟩ hp
  obtain ⟨g1, k8, k9⟩ := add_returns (x := (drawnUnity "global" n : Selector F G)) (z := r.1)
    (n := n) ⟨_, rfl, by simp⟩ k6
  obtain ⟨g2, k10, k11⟩ := add_returns k9 (z := t2.heap.selectors y.fluxSel) ⟨m, k3, k4⟩
  have hsp : ∀ q, y.spatSel = some q → q ≠ y.fluxSel := by
    intro q hq hqf
    exact c.own.fluxSpat (by rw [hq, hqf])
  obtain ⟨g3, t3, k12, k13⟩ := applySpatial_returns c v hv t2 g2 k11
    (fun q hq => by rw [hoth q (hsp q hq)]; exact iv.ready.sel q)
    (fun q hq => by
      rw [hoth q (hsp q hq)]
      exact d.others q fun j hj h => c.own.spat j hj (by rw [hq, h]))
  refine ⟨(g3, r.2), t3, ?_, k13, k7⟩
  unfold applySelections
  rw [bind_of_ok k1, bind_of_ok k2, bind_of_ok k5]
  obtain ⟨r1, r2⟩ := r
  refine (bind_of_ok (liftE_of_ok _ k8)).trans ?_
  rw [bind_of_ok (get_apply _)]
  refine (bind_of_ok (liftE_of_ok _ k10)).trans ?_
  exact (bind_of_ok k12).trans rfl

/-! ### The population -/

theorem AllRun.returns {d : Drawn F G} {s7 : SurvSt F G} (r : AllRun e y a s d s7) :
    drawAll e y a s = .ok d s7 := by
  unfold drawAll
  rw [bind_of_ok (get_apply _)]
  refine (bind_of_ok r.seeded).trans ?_
  refine (bind_of_ok r.counted).trans ?_
  refine (bind_of_ok r.placed).trans ?_
  refine (bind_of_ok r.lumd).trans ?_
  refine (bind_of_ok (liftE_of_ok _ r.transformed)).trans ?_
  refine (bind_of_ok r.auxd).trans ?_
  refine (bind_of_ok r.observed).trans ?_
  exact (bind_of_ok r.selected).trans rfl

theorem BuildRun.returns {d : Drawn F G} {t t' : SurvSt F G} {Q : Population F}
    (r : BuildRun e y d t Q t') : buildPopulation e y d t = .ok Q t' := by
  unfold buildPopulation
  refine (bind_of_ok (liftE_of_ok _ r.gmask)).trans ?_
  refine (bind_of_ok r.distd).trans ?_
  rw [bind_of_ok (get_apply _)]
  refine (bind_of_ok (liftE_of_ok _ r.dmask)).trans ?_
  refine (bind_of_ok (liftE_of_ok _ r.sel_eq)).trans ?_
  refine (bind_of_ok (liftE_of_ok _ r.known_eq)).trans ?_
  refine (bind_of_ok (liftE_of_ok _ r.logged)).trans ?_
  refine (bind_of_ok r.rmax).trans ?_
  refine (bind_of_ok r.graphed).trans ?_
  rw [bind_of_ok (get_apply _)]
  refine (bind_of_ok (liftE_of_ok _ r.dicted)).trans ?_
  exact liftE_of_ok _ r.built

theorem Spec.Below.reach {h : Heap F G} {k0 k : String} {i j : Nat} (b : Below h k0 i k j) :
    Reach h.children i j := by
  induction b with
  | here => exact .here _
  | step hm _ ih => exact .step (List.mem_map.2 ⟨_, hm, rfl⟩) ih

theorem Spec.InConfig.reach {h : Heap F G} {k : String} {j : Nat} (b : InConfig y h k j) :
    ReachFrom h y.roots j := by
  rcases b with ⟨k0, i, hm, hb⟩ | ⟨d, hd, hb⟩
  · refine ⟨i, ?_, hb.reach⟩
    simp only [Synth.roots, List.mem_append]
    exact .inr (List.mem_map.2 ⟨_, hm, rfl⟩)
  · exact ⟨d, by simp [Synth.roots, hd], hb.reach⟩

theorem Reach.trans' {ch : Nat → List Nat} {i j k : Nat} (h1 : Reach ch i j) (h2 : Reach ch j k) :
    Reach ch i k := by
  induction h1 with
  | here => exact h2
  | step hc _ ih => exact .step hc (ih h2)

theorem Spec.Ranked.le {ch : Nat → List Nat} {r : Nat → Nat} {i j : Nat} (h : Ranked ch r i)
    (hr : Reach ch i j) : r j ≤ r i := by
  induction hr with
  | here => exact Nat.le_refl _
  | step hc _ ih => exact Nat.le_trans (ih (h.child hc)) (Nat.le_of_lt (h _ (.here _) _ hc))

theorem buildGraph_returns (c : Configured e y a s rank P I J K goodD goodL goodX need)
    (hsrc : y.derived ≠ none ∨ y.lumName ≠ none) (h : Heap F G)
    (hid : ∀ j, (h.samplers j).ident = (s.heap.samplers j).ident) (g : Graph) :
    ∃ g', buildGraph e.frames y h g = .ok () g' := by
  have dr := c.samplers.of_ident hid
  have hc : h.children = s.heap.children := by
    funext i; simp only [Heap.children, ident_secondaries (hid i)]
  have hrf : ∀ j, ReachFrom h y.roots j ↔ ReachFrom s.heap y.roots j := by
    intro j; simp only [ReachFrom, hc]
  refine C44_returns e.frames y h g rank hsrc ?_ ?_ ?_ ?_
  · intro k i hm
    rw [ident_isSecondary (hid i)]; exact c.primary (k, i) hm
  · intro k j hj n x hx
    obtain ⟨i, hi, hr⟩ := (Spec.InConfig.reach hj)
    exact dr.ranked i hi j hr x (List.mem_map.2 ⟨_, hx, rfl⟩)
  · intro k j hj
    obtain ⟨i, hi, hr⟩ := (Spec.InConfig.reach hj)
    exact Nat.lt_of_le_of_lt ((dr.ranked i hi).le hr) (dr.frames i hi)
  · intro k0 j0 hj n x hx k j hu
    obtain ⟨n', x', hx', hb⟩ := hu
    obtain ⟨i, hi, hr⟩ := (Spec.InConfig.reach hj)
    have hxc : x ∈ h.children j0 := List.mem_map.2 ⟨_, hx, rfl⟩
    have hxc' : x' ∈ h.children x := List.mem_map.2 ⟨_, hx', rfl⟩
    have key : ∀ u w, Reach h.children u w → ∀ p, Reach h.children i p → ∀ z, z ∈ h.children p →
        u ∈ h.children z → (h.samplers w).usesDistance = false := by
      intro u w hw
      induction hw with
      | here u =>
        intro p hp z hz hu
        rw [ident_usesDistance (hid u)]
        rw [hc] at hp hz hu
        exact c.flat p ⟨i, hi, hp⟩ z hz u hu
      | step hcu _ ih =>
        intro p hp z hz hu
        exact ih z (Reach.trans' hp (.step hz (.here _))) _ hu hcu
    exact key x' j hb.reach j0 hr x hxc hxc'

theorem pick_ne_nil {α : Type} (l : List α) (m : List Bool) (h : l.length = m.length)
    (ht : true ∈ m) : pick l m ≠ [] := by
  intro h0
  have h1 := pick_length l m h
  rw [h0, countTrue_eq] at h1
  have := List.count_pos_iff.2 ht
  simp at h1
  omega

/-- Lengths of what was drawn. -/
structure Sized (goodD : F → Prop) (n : Nat) (d : Drawn F G) : Prop where
  pos : GoodPos goodD n d.pos
  lums : d.lums.length = n
  fluxes : d.fluxes.length = n
  fluxObs : d.fluxObs.length = n
  prob : d.prob.length = n
  glob : HasMask n d.glob.selection

theorem buildPopulation_returns (c : Configured e y a s rank P I J K goodD goodL goodX need)
    (hsrc : y.derived ≠ none ∨ y.lumName ≠ none) {n : Nat} {d : Drawn F G} (z : Sized goodD n d)
    {t5 t : SurvSt F G} (ad : AuxDone e y n s t5 d.loc.auxq) (iv : DrawInv n P I s.heap t5.heap)
    (hid : ∀ j, (t.heap.samplers j).ident = (s.heap.samplers j).ident)
    (hdist : t.heap.selectors y.distSel = t5.heap.selectors y.distSel) (hJ : J t.sp.params) :
    ∃ Q t', Nonempty (BuildRun e y d t Q t') := by
  obtain ⟨gm, hgm, hgl⟩ := z.glob
  have hgmask : d.glob.mask = .ok gm := by simp only [Selector.mask, hgm]
  have hds : t5.heap.selectors y.distSel = s.heap.selectors y.distSel :=
    ad.others _ fun j hj => c.own.dist j hj
  obtain ⟨s8, dm, k1, k2, k3, k4⟩ := selectOn_returns (e := e) (q := y.distSel) (n := countTrue gm)
    (t := t) (good := fun m => 0 < countTrue gm → true ∈ m)
    (by rw [hdist, hds]; exact c.unselected.2.1)
    (c.distSel (countTrue gm) { sel := t.heap.selectors y.distSel, rng := t.heap.rng }
      (by show P _ (t.heap.selectors _); rw [hdist]; exact iv.ready.sel _))
  have hdmask : (s8.heap.selectors y.distSel).mask = .ok dm := by simp only [Selector.mask, k2]
  have hsel : maskIndex d.pos.distance gm = .ok (pick d.pos.distance gm) := by
    unfold maskIndex; rw [if_pos (by rw [z.pos.1, hgl])]
  have hpl : (pick d.pos.distance gm).length = countTrue gm :=
    pick_length _ _ (by rw [z.pos.1, hgl])
  have hknown : maskIndex (pick d.pos.distance gm) dm = .ok (pick (pick d.pos.distance gm) dm) := by
    unfold maskIndex; rw [if_pos (by rw [hpl, k3])]
  have hkl : (pick (pick d.pos.distance gm) dm).length = countTrue dm :=
    pick_length _ _ (by rw [hpl, k3])
  have hlog : logFarthest d.glob (pick (pick d.pos.distance gm) dm) = .ok () := by
    unfold logFarthest
    rw [hgmask]
    show (if countTrue gm > 0 ∧ _ then _ else _) = _
    rw [if_neg]
    · rfl
    · rintro ⟨h1, h2⟩
      exact pick_ne_nil _ _ (by rw [hpl, k3]) (k4 h1) h2
  have f8 := selectOn_ok k1
  obtain ⟨rm, o', hrm⟩ := c.places.radius t.sp.params hJ
  have k5 : onSpatial (onParams e.spatial.readRMax) s8 =
      .ok rm { s8 with sp := { s8.sp with params := o' } } := by
    refine onSpatial_of_ok (t := { sp := { s8.sp with params := o' }, rng := s8.heap.rng }) ?_
    unfold onParams
    simp only [f8.rest.1, hrm]
  obtain ⟨g', k6⟩ := buildGraph_returns c hsrc s8.heap (by rw [f8.samplers]; exact hid) s8.graph
  have k7 : onGraph (buildGraph e.frames y s8.heap) { s8 with sp := { s8.sp with params := o' } } =
      .ok () { s8 with sp := { s8.sp with params := o' }, graph := g' } := by
    unfold onGraph
    simp only [k6]
  obtain ⟨ps, k8⟩ := c.dict { s8 with sp := { s8.sp with params := o' }, graph := g' }
  obtain ⟨Q, k9⟩ := (C30_construction (popArgs y d gm dm (pick (pick d.pos.distance gm) dm) rm ps)).2
    (by
      refine ⟨?_, ?_, ?_, ?_, ?_⟩
      · intro l hl
        simp only [popArgs, List.mem_cons, List.not_mem_nil, or_false] at hl ⊢
        rcases hl with rfl | rfl | rfl | rfl | rfl | rfl
        · rw [z.lums, hgl]
        · rw [z.pos.1, hgl]
        · rw [z.pos.2.1, hgl]
        · rw [z.pos.2.2.1, hgl]
        · rw [z.fluxes, hgl]
        · rw [z.fluxObs, hgl]
      · intro p hp
        simp only [popArgs, Option.some.injEq] at hp ⊢
        rw [← hp, z.prob, hgl]
      · simp only [popArgs]
        obtain ⟨-, -, -, -, -, -, -, i1, i2, i3⟩ := C09_index_partition dm
        rw [hkl, i1, ← countTrue_eq, ← k3, ← i3]
        exact i2
      · intro q hq
        simp only [popArgs, Option.some.injEq] at hq ⊢
        subst hq
        refine ⟨?_, ad.reports.nodup⟩
        intro k v hkv
        obtain ⟨j, h1, h2, h3, h4, -⟩ := ad.entry iv hkv
        refine ⟨by rw [hgl]; exact h4, by rw [hgl]; exact h3, by simp, ?_⟩
        show k ∉ _
        rw [show k = _ from h2]
        exact c.names j h1
      · intro _ k v hkv
        exact c.spaces (k, v) hkv)
  exact ⟨Q, _, ⟨⟨s8, _, gm, dm, _, _, rm, ps, hgmask, k1, hdmask, hsel, hknown, hlog, k5, k7, k8, k9⟩⟩⟩

/-! ### C24 -/

/-- **C24** (returns): a survey of working parts returns a population as soon as there is a
luminosity distribution or a derived luminosity sampler. -/
theorem C24_returns (c : Configured e y a s rank P I J K goodD goodL goodX need)
    (hsrc : y.derived ≠ none ∨ y.lumName ≠ none) :
    ∃ Q s', drawSurvey e y a s = .ok Q s' := by
  have hdc : DownClosed s.heap.children s.heap.sampled := by
    intro i hi
    rw [show s.heap.sampled i = false from c.unsampled i] at hi; cases hi
  obtain ⟨s1, k1, sp1, l1⟩ := reseed_returns (y := y) c.seed s
  obtain ⟨n, s2, k2, j2, l2⟩ := countObjects_returns c s1 (by rw [sp1]; exact c.spParams)
  obtain ⟨v, p0, s3, k3, j3, hv, hp0, l3⟩ := drawPositions_returns c s2 n j2
  have h3 : SameHeap s.heap s3.heap := by
    obtain ⟨q⟩ := drawPositions_ok k3
    exact (((onRng_heap k1).trans (countObjects_heap k2)).trans (onSpatial_heap q.dist)).trans
      (onSpatial_heap q.sky)
  have p3 := h3.prepared
  have iv0 : DrawInv n P I s.heap s.heap :=
    ⟨⟨c.selParams.1, c.selParams.2, fun j hj => by rw [c.unsampled j] at hj; cases hj⟩, fun _ => rfl⟩
  have iv3 := iv0.prepared p3
  obtain ⟨lums, loc1, s4, k4, iv4, hl, hgl, hp1, sp4⟩ := drawLuminosities_returns c hsrc iv3
    (by rw [p3.children, p3.sampled]; exact hdc) (by rw [l3, l2, l1]) v hv
    { truth := [(y.spatialName, truthOf s.sp.params)], auxq := [], prob := p0 } hp0
  obtain ⟨fx, k5, hfl, hfg⟩ := c.fluxes lums v.distance (by rw [hl, hv.1]) hgl hv.2.2.2
  obtain ⟨loc, s5, k6, iv5, sp5⟩ := auxFold_returns c v hv lums hl hgl y.aux (fun _ h => h) loc1 s4 iv4
  have ad := aux_done h3 rfl k4 k6 c.wellFormed hdc
  have hp5 : loc.prob = loc1.prob := auxFold_prob _ _ _ _ _ k6
  obtain ⟨fo, sg, s6, k7, hfo⟩ := observeFlux_returns (n := n) c fx s5 (by rw [hfl, hl]) hfg
  have e6 := observeFlux_rng k7
  have h6 : SameHeap s5.heap s6.heap := by unfold SameHeap; rw [e6]
  have p6 := h6.prepared
  have ad6 : AuxDone e y n s s6 loc.auxq := by
    refine ⟨ad.reports.of_prepared p6, ?_, ?_⟩
    · rw [p6.sampled]; exact ad.sampled
    · rw [p6.selectors]; exact ad.others
  have iv6 := iv5.prepared p6
  obtain ⟨⟨gl, pr⟩, s7, k8, hglob, hpr⟩ := applySelections_returns c v hv ad6 iv6 fo hfo
    (by rw [hp5]; exact hp1)
  let d : Drawn F G := ⟨n, v, lums, loc, fx, fo, sg, gl, pr⟩
  let r : AllRun e y a s d s7 := ⟨s1, s2, s3, s4, s5, s6, p0, loc1, k1, k2, k3, k4, k5, k6, k7, k8⟩
  obtain ⟨f1, -, f2, f3, -, -⟩ := r.frame7
  obtain ⟨Q, s', ⟨b⟩⟩ := buildPopulation_returns (d := d) (t := s7) c hsrc
    ⟨hv, hl, by rw [← hl]; exact hfl, hfo, hpr, hglob⟩ ad6 iv6 (by rw [f1]; exact iv6.ident)
    (f2 _ (fun h => c.own.fluxDist h.symm) c.own.distSpat)
    (by rw [f3]; show J s6.sp.params; rw [e6]; show J s5.sp.params; rw [sp5, sp4]; exact j3)
  exact ⟨Q, s', (bind_of_ok r.returns).trans b.returns⟩

/-- **C24**: a survey of working parts returns a population exactly when there is a
luminosity distribution or a derived luminosity sampler; otherwise it raises `RuntimeError`. -/
theorem C24_iff (c : Configured e y a s rank P I J K goodD goodL goodX need) :
    ((∃ Q s', drawSurvey e y a s = .ok Q s') ↔ (y.derived ≠ none ∨ y.lumName ≠ none)) ∧
    ((∃ s', drawSurvey e y a s = .error .runtime s') ↔ y.derived = none ∧ y.lumName = none) := by
  have none_raises : y.derived = none → y.lumName = none →
      ∃ s', drawSurvey e y a s = .error .runtime s' := by
    intro h1 h2
    obtain ⟨s1, k1, sp1, -⟩ := reseed_returns (y := y) c.seed s
    obtain ⟨n, s2, k2, j2, -⟩ := countObjects_returns c s1 (by rw [sp1]; exact c.spParams)
    obtain ⟨v, p0, s3, k3, -⟩ := drawPositions_returns c s2 n j2
    exact ⟨s3, (C24_no_source e y a s h1 h2).2 s1 s2 s3 n (v, p0) k1 k2 k3⟩
  have em : (y.derived ≠ none ∨ y.lumName ≠ none) ∨ (y.derived = none ∧ y.lumName = none) := by
    cases y.derived <;> cases y.lumName <;> simp
  refine ⟨⟨?_, C24_returns c⟩, ?_, fun h => none_raises h.1 h.2⟩
  · rintro ⟨Q, s', hk⟩
    rcases em with h | ⟨h1, h2⟩
    · exact h
    · exact absurd hk ((C24_no_source e y a s h1 h2).1 Q s')
  · rintro ⟨s', hk⟩
    rcases em with h | h
    · obtain ⟨Q, s'', hk'⟩ := C24_returns c h
      rw [hk] at hk'; cases hk'
    · exact h

end stages

/-! ### Built-in selections -/

/-- A flux selector: parameters set, selects on the flux if on anything, and not on positions. -/
structure Spec.ForFlux (w : World F G) (c : Selector F G) : Prop where
  params : ParamsSet w c
  notSpatial : c.kind.isSpatial = false
  flux : Valued c.kind → c.data.useFlux = true

/-- **C24** (built-in selections): selections of the classes that come with popsynth, with their
parameters set, can be drawn as flux selection, as spatial selection, and – if they are
`UnitySelection`s – as distance selection. -/
theorem C24_builtin_selections (w : World F G) (n : Nat) :
    (∀ f, f.length = n → CanSelect w (ForFlux w) n (fun d => { d with flux := some f }) fun _ => True) ∧
    (∀ sp : SpatialView F, sp.distances.length = n → sp.galB.length = n →
      CanSelect w (fun c => ParamsSet w c ∧ c.kind.isSpatial = true) n
        (fun d => { d with spatial := some sp }) fun _ => True) ∧
    CanSelect w (fun c => c.kind = .unity) n id fun m => 0 < n → true ∈ m := by
  refine ⟨?_, ?_, ?_⟩
  · intro f hf st hc
    obtain ⟨m, g, k1, k2⟩ := selDraw_returns w n
      { st with sel := { st.sel with data := { st.sel.data with flux := some f } } }
      hc.params ⟨fun hv => ⟨f, by simp [source, hc.flux hv], hf⟩, by
        intro hs
        rw [show SelKind.isSpatial st.sel.kind = false from hc.notSpatial] at hs; cases hs⟩
    exact ⟨_, m, k1, rfl, k2, trivial⟩
  · intro sp h1 h2 st hc
    obtain ⟨m, g, k1, k2⟩ := selDraw_returns w n
      { st with sel := { st.sel with data := { st.sel.data with spatial := some sp } } }
      hc.1 ⟨by
        intro hv
        have hs := hc.2
        have hv : Valued st.sel.kind := hv
        rcases hv with h | h | h | h <;> (rw [h] at hs; cases hs), fun _ => ⟨sp, rfl, h1, h2⟩⟩
    exact ⟨_, m, k1, rfl, k2, trivial⟩
  · intro st hc
    refine ⟨{ st with sel := { st.sel with selection := some (List.replicate n true) } },
      List.replicate n true, ?_, rfl, by simp, fun hn => by simp; omega⟩
    simp [selDraw, bind_apply, hc, setMask]

/-! ### Non-vacuity -/

/-- What is required of the selectors of the example. -/
def SurveyExample.selOk (q : Nat) (c : Selector Nat Nat) : Prop :=
  if q = 10 then ForFlux SamplerExample.w c else if q = 11 then c.kind = .unity
  else ForSampler SamplerExample.w c

theorem SurveyExample.configured (lumName : Option String) :
    Configured env { synth with lumName } args st SamplerExample.rank selOk (fun _ _ => True)
      (fun _ => True) (fun _ => True) (fun _ => True) (fun _ => True) (fun _ => True)
      (fun _ => false) := by
  have hle : ∀ j, ReachFrom st.heap synth.roots j → j ≤ 3 := reachFrom_le
  have hsel : ∀ j, j ≤ 3 → (st.heap.samplers j).selector = j := by
    intro j hj
    match j, hj with
    | 0, _ => rfl
    | 1, _ => rfl
    | 2, _ => rfl
    | 3, _ => rfl
  refine
    { seed := fun g => ⟨42, rfl⟩
      places := ⟨?_, ?_, fun o _ => ⟨10, o, rfl⟩⟩
      spParams := trivial
      counts := fun _ o _ => ⟨3, o, rfl, trivial, fun g => ⟨3, g + 1, rfl⟩⟩
      shines := fun _ _ => ⟨⟨?_, ?_⟩, trivial⟩
      derives := fun d hd => by cases hd
      fluxes := fun l d hl _ _ => ⟨_, rfl, by simp [hl], fun _ _ => trivial⟩
      noise := fun sg hs => by cases hs
      samplers := ⟨?_, ?_, ?_, ?_, ?_⟩
      wellFormed := wellFormed
      own := ?_
      needs := fun _ _ _ _ h => by cases h
      derivedNeeds := fun d hd => by cases hd
      primary := show ∀ kv ∈ synth.aux, (st.heap.samplers kv.2).isSecondary = false by decide
      flat := ?_
      names := ?_
      unsampled := SamplerExample.unsampled
      selParams := ⟨?_, fun _ => trivial⟩
      unselected := ⟨rfl, rfl, fun q hq => by cases hq⟩
      fluxSel := fun n f hf => (C24_builtin_selections SamplerExample.w n).1 f hf
      distSel := fun n => (C24_builtin_selections SamplerExample.w n).2.2
      spatSel := fun q hq => by cases hq
      spaces := fun p hp => by cases hp
      dict := fun t => ⟨_, rfl⟩ }
  · intro n t _
    exact ⟨_, _, _, rfl, trivial, rfl, by simp, fun _ _ => trivial, rfl, by simp⟩
  · intro n t d _ hd hn _
    refine ⟨_, ⟨d, List.replicate n 0, List.replicate n 1⟩, rfl, trivial, hd, rfl, rfl, hn, ?_, ?_,
      fun _ _ => trivial⟩ <;> simp
  · intro n t _
    exact ⟨_, t, rfl, trivial, by simp, fun _ _ => trivial⟩
  · intro l o _ _
    exact ⟨_, o, rfl, by simp⟩
  · intro i _; exact SamplerExample.ranked i
  · intro i hi
    have : i = 0 := by simpa [Synth.roots, synth] using hi
    subst this; decide
  · intro j _ n
    exact ⟨fun v g _ _ => ⟨rfl, trivial, _, rfl, by simp⟩,
      fun _ v g l _ _ _ hv hl => ⟨rfl, trivial, ⟨l, hv, hl⟩, _, rfl, by simp⟩,
      fun v l _ _ _ _ => ⟨none, rfl, fun q hq => nomatch hq⟩⟩
  · intro j hj n
    have h3 := hle j hj
    rw [hsel j h3]
    have : selOk j = ForSampler SamplerExample.w := by
      funext c; simp only [selOk]; rw [if_neg (by omega), if_neg (by omega)]
    rw [this]
    exact C12_builtin_selectable SamplerExample.w n
  · intro j hj
    have h3 := hle j hj
    match j, h3 with
    | 0, _ => decide
    | 1, _ => decide
    | 2, _ => decide
    | 3, _ => decide
  · exact ⟨ownSelectors.inj, ownSelectors.flux, ownSelectors.dist, ownSelectors.spat,
      ownSelectors.fluxDist, ownSelectors.fluxSpat, ownSelectors.distSpat⟩
  · intro i hi
    have h3 := hle i hi
    match i, h3 with
    | 0, _ => decide
    | 1, _ => decide
    | 2, _ => decide
    | 3, _ => decide
  · intro j hj
    have h3 := hle j hj
    match j, h3 with
    | 0, _ => decide
    | 1, _ => decide
    | 2, _ => decide
    | 3, _ => decide
  · intro q
    by_cases h10 : q = 10
    · subst h10; exact ⟨⟨4, rfl⟩, rfl, fun _ => rfl⟩
    · by_cases h11 : q = 11
      · subst h11; rfl
      · simp only [selOk, if_neg h10, if_neg h11]
        by_cases h2 : q = 2
        · subst h2; exact ⟨⟨100, rfl⟩, rfl, fun _ => ⟨rfl, rfl, rfl⟩⟩
        · have : st.heap.selectors q = { kind := .unity } := by
            simp only [st, heap]
          rw [this]
          exact ⟨trivial, rfl, fun h => by rcases h with h | h | h | h <;> cases h⟩

/-- With a luminosity distribution the example survey returns, without it raises. -/
example : (∃ Q s', drawSurvey SurveyExample.env SurveyExample.synth SurveyExample.args
      SurveyExample.st = .ok Q s') ∧
    ∃ s', drawSurvey SurveyExample.env { SurveyExample.synth with lumName := none }
      SurveyExample.args SurveyExample.st = .error .runtime s' :=
  ⟨(C24_iff (SurveyExample.configured (some "lum"))).1.2 (.inr (by simp)),
    (C24_iff (SurveyExample.configured none)).2.2 ⟨rfl, rfl⟩⟩

end Popsynth
