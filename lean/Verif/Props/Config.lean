import Verif.Lemmas.Config

/-!
# Configurations as dictionaries (C41, C42, C43)
-/

set_option autoImplicit false
set_option linter.unusedSectionVars false

namespace Popsynth

variable {F : Type} [LE F] [DecidableLE F]

/-! ### C41: what a configuration must be like to survive -/

namespace Spec

/-- The recorded parameters are declared and admissible. -/
def ParamsOk (decls : Dict (ParamDecl F)) (o : Obj F) : Prop :=
  (Dict.keys o.storage).Nodup ∧
  ∀ k v, (k, v) ∈ truthOf o → ∃ dc, Dict.get? decls k = some dc ∧ Admits dc v

/-- A distribution object of a registered class of the right kind. -/
def DistOk (R : Registry F) (kind : DistCls F → Bool) (c : CDist F) : Prop :=
  ∃ k, Dict.get? R.dists c.cls = some k ∧ k.ctorOk = true ∧ kind k = true ∧
    ParamsOk k.params c.obj

/-- A selector object of a registered class, with the flags `flag` produces if they matter. -/
def SelOk (R : Registry F) (flag : SelFlags → SelFlags) (s : CSel F) : Prop :=
  ∃ k, Dict.get? R.sels s.cls = some k ∧ k.ctorOk = true ∧ ParamsOk k.params s.obj ∧
    (k.usesFlags = true → s.flags = flag k.flags0)

/-- The selector's recorded parameters are declared by its own class. -/
def OwnParams (R : Registry F) (s : CSel F) : Prop :=
  ∀ k, Dict.get? R.sels s.cls = some k → ∀ n v, (n, v) ∈ truthOf s.obj → n ∈ k.own

/-- The constructor of the sampler's class takes the arguments `from_dict` has, in one of
the four forms it tries, and the sampler's names and flag are what that form gives. -/
def CtorOk (k : SamplerCls F) (c : CSampler F) : Prop :=
  (k.accepts true true [] = true ∧ c.obsName = c.name ++ "_obs") ∨
  (k.accepts true true [] = false ∧ k.accepts false true [] = true ∧ c.name = k.name0 ∧
    c.obsName = k.name0 ++ "_obs") ∨
  (k.accepts true true [] = false ∧ k.accepts false true [] = false ∧
    k.accepts true false [] = true ∧ c.obsName = c.name ++ "_obs" ∧ c.observed = k.observed0) ∨
  (k.accepts true true [] = false ∧ k.accepts false true [] = false ∧
    k.accepts true false [] = false ∧ k.accepts false false [] = true ∧
    c.obsName = k.name0 ++ "_obs")

/-- The keys of an entry that are not parameters. -/
def reserved : List String := ["type", "observed", "selection", "secondary", "init variables"]

/-- A sampler object that can be rebuilt from its entry. -/
def SamplerOk (R : Registry F) (c : CSampler F) : Prop :=
  ∃ k, Dict.get? R.samplers c.cls = some k ∧ CtorOk k c ∧ ParamsOk k.params c.obj ∧
    (∀ n ∈ reserved, n ∉ Dict.keys c.obj.storage) ∧
    SelOk R (fun f => { f with obs := true }) c.sel ∧ OwnParams R c.sel ∧
    (Dict.keys c.secs).Nodup

/-- The addresses of the attached samplers and of the derived luminosity sampler. -/
def Root (y : CSynth F) (i : String) : Prop :=
  (∃ k, (k, i) ∈ y.aux) ∨ y.derived = some i

/-- The addresses reachable from the attached samplers. -/
inductive Used (y : CSynth F) : String → Prop
  | root {i : String} : Root y i → Used y i
  | sec {i j k : String} {c : CSampler F} : Used y i → Dict.get? y.objs i = some c →
      (k, j) ∈ c.secs → Used y j

/-- A configuration that `to_dict` can describe completely. -/
structure Config (R : Registry F) (rank : String → Nat) (y : CSynth F) : Prop where
  spatial : DistOk R (·.spatial) y.spatial
  /-- `_is_rate` only means something for a cosmological distribution -/
  rate : R.cosmo y.spatial.cls = false →
    ∀ k, Dict.get? R.dists y.spatial.cls = some k → y.spatial.isRate = k.rate0
  notRate : y.spatial.cls ≠ "is_rate"
  lum : ∀ c, y.lum = some c → DistOk R (·.luminosity) c ∧
    ∀ k, Dict.get? R.dists c.cls = some k → c.isRate = k.rate0
  flux : ∀ s, y.fluxSel = some s → SelOk R (fun f => { f with flux := true }) s
  dist : ∀ s, y.distSel = some s → SelOk R (fun f => { f with dist := true }) s
  spat : ∀ s, y.spatSel = some s → SelOk R id s
  /-- every reachable sampler exists and can be rebuilt -/
  sampler : ∀ i, Used y i → ∃ c, Dict.get? y.objs i = some c ∧ SamplerOk R c
  /-- different samplers have different names -/
  names : ∀ i j c c', Used y i → Used y j → Dict.get? y.objs i = some c →
    Dict.get? y.objs j = some c' → c.name = c'.name → i = j
  /-- samplers are filed under their names -/
  auxKey : ∀ k i c, (k, i) ∈ y.aux → Dict.get? y.objs i = some c → k = c.name
  secKey : ∀ i c k j c', Used y i → Dict.get? y.objs i = some c → (k, j) ∈ c.secs →
    Dict.get? y.objs j = some c' → k = c'.name
  auxNodup : (Dict.keys y.aux).Nodup
  /-- attached samplers are nobody's secondaries, and no secondary sampler is marked as free -/
  root : ∀ i c k j, Used y i → Dict.get? y.objs i = some c → (k, j) ∈ c.secs → ¬ Root y j
  attached : ∀ k i c, (k, i) ∈ y.aux → Dict.get? y.objs i = some c → R.derived c.cls = false
  /-- secondaries are not circular -/
  acyclic : ∀ i c k j, Used y i → Dict.get? y.objs i = some c → (k, j) ∈ c.secs →
    rank j < rank i
  /-- a derived luminosity sampler is of such a class, not attached as another quantity, and
  has secondaries or is named like its class -/
  derived : ∀ i c, y.derived = some i → Dict.get? y.objs i = some c →
    R.derived c.cls = true ∧ (c.secs = [] → c.name = c.cls)

/-- The same distribution. -/
def SameDist (c c' : CDist F) : Prop :=
  c'.cls = c.cls ∧ truthOf c'.obj = truthOf c.obj ∧ c'.isRate = c.isRate

/-- The same selector (flags are compared if the class looks at them). -/
def SameSel (R : Registry F) (s s' : CSel F) : Prop :=
  s'.cls = s.cls ∧ truthOf s'.obj = truthOf s.obj ∧
  ∀ k, Dict.get? R.sels s.cls = some k → k.usesFlags = true → s'.flags = s.flags

/-- Both missing, or both there and related. -/
def Opt {α : Type} (r : α → α → Prop) : Option α → Option α → Prop
  | none, none => True
  | some a, some b => r a b
  | _, _ => False

/-- The same sampler, with secondaries filed and addressed by name. -/
def SameSampler (R : Registry F) (c c' : CSampler F) : Prop :=
  c'.cls = c.cls ∧ c'.name = c.name ∧ c'.obsName = c.obsName ∧ c'.observed = c.observed ∧
  truthOf c'.obj = truthOf c.obj ∧ SameSel R c.sel c'.sel ∧
  c'.secs = c.secs.map fun p => (p.1, p.1)

/-- `y'` is the configuration `y` with every sampler addressed by its name. -/
structure SameConfig (R : Registry F) (y y' : CSynth F) : Prop where
  seed : y'.seed = y.seed
  spatial : SameDist y.spatial y'.spatial
  lum : Opt SameDist y.lum y'.lum
  flux : Opt (SameSel R) y.fluxSel y'.fluxSel
  dist : Opt (SameSel R) y.distSel y'.distSel
  spat : Opt (SameSel R) y.spatSel y'.spatSel
  aux : y'.aux = y.aux.map fun p => (p.1, p.1)
  derived : y'.derived = y.derived.map (nameAt y.objs)
  sampler : ∀ i c, Used y i → Dict.get? y.objs i = some c →
    ∃ c', Dict.get? y'.objs c.name = some c' ∧ SameSampler R c c' ∧
      (c'.isSecondary = true ↔ ¬ Root y i)

end Spec

open Spec

/-! ### The parts of `from_dict` on what `to_dict` writes -/

theorem setParams_pvTruth (C : Conv F) (ok : String → Option (ParamDecl F)) (o : Obj F)
    (hn : (Dict.keys o.storage).Nodup)
    (hok : ∀ k v, (k, v) ∈ truthOf o → ∃ dc, ok k = some dc ∧ Admits dc v) :
    ∃ o', setParams C ok {} (pvTruth o) = .ok o' ∧ truthOf o' = truthOf o := by
  obtain ⟨o', h1, h2⟩ := setParams_truth C ok (truthOf o) {} (nodup_truthOf o hn)
    (by simp [Dict.keys]) hok
  exact ⟨o', h1, truthOf_of_storage o' _ (by rw [h2]; rfl)⟩

theorem loadDist_ok (R : Registry F) (C : Conv F) (kind : DistCls F → Bool) (c : CDist F)
    (h : DistOk R kind c) (rest : Dict (PVal F)) :
    ∃ k o, Dict.get? R.dists c.cls = some k ∧ kind k = true ∧ truthOf o = truthOf c.obj ∧
      loadDist R C (.dict ((c.cls, .dict (pvTruth c.obj)) :: rest)) =
        .ok ({ cls := c.cls, obj := o, isRate := k.rate0 }, k) := by
  obtain ⟨k, h1, h2, h3, h4, h5⟩ := h
  obtain ⟨o, h6, h7⟩ := setParams_pvTruth C (Dict.get? k.params) c.obj h4 h5
  refine ⟨k, o, h1, h3, h7, ?_⟩
  simp [loadDist, PVal.items, firstItem, lookup, h1, h2, h6, bind, Except.bind, pure, Except.pure]

theorem loadSel_ok (R : Registry F) (C : Conv F) (own : Bool) (flag : SelFlags → SelFlags)
    (s : CSel F) (h : SelOk R flag s) (ho : own = true → OwnParams R s) :
    ∃ s', loadSel R C own flag (selDict s) = .ok (some s') ∧ SameSel R s s' := by
  obtain ⟨k, h1, h2, ⟨h3, h4⟩, h5⟩ := h
  obtain ⟨o, h6, h7⟩ := setParams_pvTruth C
    (fun n => if own && !(n ∈ k.own) then none else Dict.get? k.params n) s.obj h3 (by
      intro n v hm
      obtain ⟨dc, e1, e2⟩ := h4 n v hm
      refine ⟨dc, ?_, e2⟩
      cases hown : own with
      | false => simpa using e1
      | true =>
        have := ho hown k h1 n v hm
        simpa [this] using e1)
  refine ⟨{ cls := s.cls, obj := o, flags := flag k.flags0 }, ?_, rfl, h7, ?_⟩
  · simp only [loadSel, selDict, PVal.items, firstItem, lookup, h1, h2, bind, Except.bind, pure,
      Except.pure, paramItems, Bool.not_true, Bool.false_eq_true, if_false, h6]
  · intro k' hk' hu
    rw [h1] at hk'; cases hk'
    exact (h5 hu).symm

theorem loadOptSel_ok (R : Registry F) (C : Conv F) (flag : SelFlags → SelFlags)
    (os : Option (CSel F)) (d : Dict (PVal F)) (key : String)
    (hd : Dict.get? d key = os.map selDict) (h : ∀ s, os = some s → SelOk R flag s) :
    ∃ os', loadOptSel R C flag d key = .ok os' ∧ Opt (SameSel R) os os' := by
  unfold loadOptSel
  rw [hd]
  cases os with
  | none => exact ⟨none, rfl, trivial⟩
  | some s =>
    obtain ⟨s', h1, h2⟩ := loadSel_ok R C false flag s (h s rfl) (by simp)
    exact ⟨some s', h1, h2⟩

theorem getOpt_append {α : Type} (a b : Dict α) (k : String) :
    Dict.get? (a ++ b) k = (Dict.get? a k).or (Dict.get? b k) := by
  induction a with
  | nil => rfl
  | cons p a ih =>
    obtain ⟨k', v⟩ := p
    by_cases h : k' = k
    · simp [Dict.get?, h]
    · simp [Dict.get?, h, ih]

theorem get?_optSection {F : Type} (key k : String) (v : Option (PVal F)) :
    Dict.get? (optSection key v) k = if key = k then v else none := by
  cases v with
  | none => simp [optSection]
  | some v => simp [optSection, Dict.get?]

/-- The dictionary `to_dict` writes, given its last section. -/
def written (R : Registry F) (y : CSynth F) (aux : Dict (PVal F)) : Dict (PVal F) :=
  [("seed", PVal.int y.seed), ("spatial distribution", .dict (spatialDict R y.spatial))]
    ++ optSection "luminosity distribution" (y.lum.map fun c => .dict (distDict c))
    ++ optSection "flux selection" (y.fluxSel.map selDict)
    ++ optSection "distance selection" (y.distSel.map selDict)
    ++ optSection "spatial selection" (y.spatSel.map selDict)
    ++ [("auxiliary samplers", .dict aux)]

theorem toDict_eq (R : Registry F) (fuel : Nat) (y : CSynth F) (aux : Dict (PVal F))
    (h : auxDict fuel y = .ok aux) : toDict R fuel y = .ok (written R y aux) := by
  unfold toDict
  rw [h]; rfl

theorem get?_written (R : Registry F) (y : CSynth F) (aux : Dict (PVal F)) :
    Dict.get? (written R y aux) "seed" = some (.int y.seed) ∧
    Dict.get? (written R y aux) "spatial distribution" =
      some (.dict (spatialDict R y.spatial)) ∧
    Dict.get? (written R y aux) "luminosity distribution" =
      (y.lum.map fun c => .dict (distDict c)) ∧
    Dict.get? (written R y aux) "flux selection" = y.fluxSel.map selDict ∧
    Dict.get? (written R y aux) "distance selection" = y.distSel.map selDict ∧
    Dict.get? (written R y aux) "spatial selection" = y.spatSel.map selDict ∧
    Dict.get? (written R y aux) "auxiliary samplers" = some (.dict aux) := by
  unfold written
  simp [getOpt_append, get?_optSection, Dict.get?]

theorem loadHead_ok (R : Registry F) (C : Conv F) (rank : String → Nat) (y : CSynth F)
    (h : Config R rank y) (aux : Dict (PVal F)) :
    ∃ y', loadHead R C (written R y aux) = .ok y' ∧ y'.seed = y.seed ∧
      SameDist y.spatial y'.spatial ∧ Opt SameDist y.lum y'.lum ∧
      Opt (SameSel R) y.fluxSel y'.fluxSel ∧ Opt (SameSel R) y.distSel y'.distSel ∧
      Opt (SameSel R) y.spatSel y'.spatSel ∧ y'.aux = [] ∧ y'.derived = none := by
  obtain ⟨g1, g2, g3, g4, g5, g6, g7⟩ := get?_written R y aux
  obtain ⟨fs, f1, f2⟩ := loadOptSel_ok R C (fun f => { f with flux := true }) y.fluxSel _ _ g4 h.flux
  obtain ⟨ds, d1, d2⟩ := loadOptSel_ok R C (fun f => { f with dist := true }) y.distSel _ _ g5 h.dist
  obtain ⟨ss, s1, s2⟩ := loadOptSel_ok R C id y.spatSel _ _ g6 h.spat
  -- the spatial distribution
  have hsp : ∃ k o, Dict.get? R.dists y.spatial.cls = some k ∧ k.spatial = true ∧
      truthOf o = truthOf y.spatial.obj ∧
      loadDist R C (.dict (spatialDict R y.spatial)) =
        .ok ({ cls := y.spatial.cls, obj := o, isRate := k.rate0 }, k) ∧
      loadRate (.dict (spatialDict R y.spatial))
        ({ cls := y.spatial.cls, obj := o, isRate := k.rate0 }, k) =
        .ok { cls := y.spatial.cls, obj := o, isRate := y.spatial.isRate } := by
    by_cases hc : R.cosmo y.spatial.cls = true
    · have e : spatialDict R y.spatial = (y.spatial.cls, .dict (pvTruth y.spatial.obj)) ::
          [("is_rate", y.spatial.isRate)] := by
        unfold spatialDict distDict
        rw [if_pos hc, Dict.set_append_of_not_mem]
        · rfl
        · simp [Dict.keys, Ne.symm h.notRate]
      rw [e]
      obtain ⟨k, o, k1, k2, k3, k4⟩ := loadDist_ok R C (·.spatial) y.spatial h.spatial
        [("is_rate", y.spatial.isRate)]
      refine ⟨k, o, k1, k2, k3, k4, ?_⟩
      have hk : k.cosmo = true := by
        unfold Registry.cosmo at hc; rw [k1] at hc; exact hc
      simp [loadRate, hk, PVal.items, lookup, Dict.get?, h.notRate, bind, Except.bind, pure,
        Except.pure]
    · have e : spatialDict R y.spatial = (y.spatial.cls, .dict (pvTruth y.spatial.obj)) :: [] := by
        unfold spatialDict distDict
        rw [if_neg hc]
      rw [e]
      obtain ⟨k, o, k1, k2, k3, k4⟩ := loadDist_ok R C (·.spatial) y.spatial h.spatial []
      refine ⟨k, o, k1, k2, k3, k4, ?_⟩
      have hc' : R.cosmo y.spatial.cls = false := by simpa using hc
      have hk : k.cosmo = false := by
        unfold Registry.cosmo at hc'; rw [k1] at hc'; exact hc'
      simp [loadRate, hk, h.rate hc' k k1, pure, Except.pure]
  obtain ⟨k, o, k1, k2, k3, k4, k5⟩ := hsp
  -- the luminosity distribution
  have hl : ∃ lum, loadDists R C (written R y aux) =
      .ok (y.seed, { cls := y.spatial.cls, obj := o, isRate := y.spatial.isRate }, lum) ∧
      Opt SameDist y.lum lum := by
    unfold loadDists loadLum
    rw [g3]
    cases hy : y.lum with
    | none =>
      refine ⟨none, ?_, trivial⟩
      simp [lookup, g1, g2, k4, k5, Conv.int, k2, bind, Except.bind, pure, Except.pure]
    | some l =>
      obtain ⟨l1, l2⟩ := h.lum l hy
      obtain ⟨kl, ol, m1, m2, m3, m4⟩ := loadDist_ok R C (·.luminosity) l l1 []
      refine ⟨some { cls := l.cls, obj := ol, isRate := kl.rate0 }, ?_,
        rfl, m3, (l2 kl m1).symm⟩
      have m4' : loadDist R C (.dict (distDict l)) =
        .ok ({ cls := l.cls, obj := ol, isRate := kl.rate0 }, kl) := m4
      simp [lookup, g1, g2, k4, k5, Conv.int, k2, m4', m2, bind, Except.bind, pure, Except.pure]
  obtain ⟨lum, hl1, hl2⟩ := hl
  refine ⟨{ seed := y.seed
            spatial := { cls := y.spatial.cls, obj := o, isRate := y.spatial.isRate }
            lum := lum, fluxSel := fs, distSel := ds, spatSel := ss },
    ?_, rfl, ⟨rfl, k3, rfl⟩, hl2, f2, d2, s2, rfl, rfl⟩
  simp [loadHead, hl1, f1, d1, s1, bind, Except.bind, pure, Except.pure]

/-! ### One entry -/

theorem foldl_set_append {α : Type} (l d : Dict α) (hn : (Dict.keys l).Nodup)
    (hd : ∀ k ∈ Dict.keys l, k ∉ Dict.keys d) :
    l.foldl (fun d p => Dict.set d p.1 p.2) d = d ++ l := by
  induction l generalizing d with
  | nil => simp
  | cons p l ih =>
    obtain ⟨k, v⟩ := p
    simp only [Dict.keys, List.map_cons, List.nodup_cons] at hn
    have hk : k ∉ Dict.keys d := hd k (by simp [Dict.keys])
    rw [List.foldl_cons, Dict.set_append_of_not_mem _ _ _ hk, ih _ hn.2 ?_]
    · simp
    · intro k' hk' hm
      simp only [Dict.keys, List.map_append, List.mem_append, List.map_cons, List.map_nil,
        List.mem_singleton] at hm
      rcases hm with hm | rfl
      · exact hd k' (List.mem_cons_of_mem _ hk') hm
      · exact hn.1 hk'

theorem erase_append_right {α : Type} (a b : Dict α) (k : String) (h : k ∉ Dict.keys a) :
    Dict.erase (a ++ b) k = a ++ Dict.erase b k := by
  induction a with
  | nil => rfl
  | cons p a ih =>
    obtain ⟨k', v⟩ := p
    simp only [Dict.keys, List.map_cons, List.mem_cons, not_or] at h
    have hk : k' ≠ k := Ne.symm h.1
    simp only [List.cons_append, Dict.erase, if_neg hk]
    rw [ih h.2]

theorem keys_pvTruth (o : Obj F) : Dict.keys (pvTruth o) = Dict.keys (truthOf o) := by
  simp [pvTruth, Dict.keys, List.map_map, Function.comp_def]

/-- The dictionary of an entry. -/
def entryItems (c : CSampler F) (type : String) : Dict (PVal F) :=
  ("type", .str type) :: ("observed", c.observed) :: (pvTruth c.obj ++
    [("secondary", .list (c.secs.map fun p => PVal.str p.1)), ("selection", selDict c.sel)])

theorem entryOf_eq (c : CSampler F) (type : String) (hn : (Dict.keys c.obj.storage).Nodup)
    (hr : ∀ n ∈ reserved, n ∉ Dict.keys c.obj.storage) :
    entryOf c type = .dict (entryItems c type) := by
  have hr' : ∀ n ∈ reserved, n ∉ Dict.keys (pvTruth c.obj) := by
    intro n hm hk
    rw [keys_pvTruth] at hk
    exact hr n hm (keys_truthOf_sub _ _ hk)
  unfold entryOf
  simp only
  rw [foldl_set_append]
  · have h1 : "secondary" ∉ Dict.keys ([("type", PVal.str type), ("observed", c.observed)] ++
        pvTruth c.obj) := by
      intro hm
      simp only [Dict.keys, List.map_append, List.mem_append] at hm
      rcases hm with hm | hm
      · simp at hm
      · exact hr' "secondary" (by decide) hm
    have h2 : "selection" ∉ Dict.keys (([("type", PVal.str type), ("observed", c.observed)] ++
        pvTruth c.obj) ++ [("secondary", PVal.list (c.secs.map fun p => PVal.str p.1))]) := by
      intro hm
      simp only [Dict.keys, List.map_append, List.mem_append] at hm
      rcases hm with (hm | hm) | hm
      · simp at hm
      · exact hr' "selection" (by decide) hm
      · simp at hm
    rw [Dict.set_append_of_not_mem _ _ _ h1, Dict.set_append_of_not_mem _ _ _ h2]
    simp [entryItems]
  · rw [keys_pvTruth]; exact nodup_truthOf _ hn
  · intro k hk hm
    simp only [Dict.keys, List.map_cons, List.map_nil, List.mem_cons, List.not_mem_nil,
      or_false] at hm
    rcases hm with rfl | rfl
    · exact hr' "type" (by decide) hk
    · exact hr' "observed" (by decide) hk

theorem mapM_secName (l : List String) :
    (l.map (PVal.str : String → PVal F)).mapM secName = .ok (l.map some) := by
  induction l with
  | nil => rfl
  | cons x l ih =>
    rw [List.map_cons, List.mapM_cons, ih]; rfl

theorem construct_ok (R : Registry F) (c : CSampler F) (k : SamplerCls F)
    (hk : Dict.get? R.samplers c.cls = some k) (h : CtorOk k c) :
    construct R c.cls c.name c.observed [] =
      .ok { cls := c.cls, name := c.name, obsName := c.obsName, observed := c.observed } := by
  unfold construct lookup
  rw [hk]
  rcases h with ⟨h1, h2⟩ | ⟨h1, h2, h3, h4⟩ | ⟨h1, h2, h3, h4, h5⟩ | ⟨h1, h2, h3, h4, h5⟩
  · simp [h1, h2, bind, Except.bind, pure, Except.pure]
  · simp [h1, h2, h3, h4, bind, Except.bind, pure, Except.pure]
  · simp [h1, h2, h3, h4, h5, bind, Except.bind, pure, Except.pure]
  · simp [h1, h2, h3, h4, h5, bind, Except.bind, pure, Except.pure]

/-- `from_dict` rebuilds a sampler, still without secondaries, from its entry. -/
theorem onEntry_ok (R : Registry F) (C : Conv F) (c : CSampler F) (h : SamplerOk R c) :
    ∃ c' v, onEntry R C c.name (entryOf c c.cls) =
        (.ok (c', some ((c.secs.map (·.1)).map some)), v) ∧
      c'.cls = c.cls ∧ c'.name = c.name ∧ c'.obsName = c.obsName ∧ c'.observed = c.observed ∧
      truthOf c'.obj = truthOf c.obj ∧ SameSel R c.sel c'.sel ∧ c'.secs = [] ∧
      c'.isSecondary = false := by
  obtain ⟨k, h1, h2, ⟨h3, h4⟩, h5, h6, h7, h8⟩ := h
  rw [entryOf_eq c c.cls h3 h5]
  have hr' : ∀ n ∈ reserved, n ∉ Dict.keys (pvTruth c.obj) := by
    intro n hm hk
    rw [keys_pvTruth] at hk
    exact h5 n hm (keys_truthOf_sub _ _ hk)
  have hg : ∀ n ∈ reserved, Dict.get? (pvTruth c.obj) n = none := fun n hn =>
    (Dict.get?_eq_none_iff _ _).2 (hr' n hn)
  obtain ⟨o, p1, p2⟩ := setParams_pvTruth C (Dict.get? k.params) c.obj h3 h4
  obtain ⟨s, s1, s2⟩ := loadSel_ok R C true (fun f => { f with obs := true }) c.sel h6 (fun _ => h7)
  let c' : CSampler F := { cls := c.cls, name := c.name, obsName := c.obsName,
                           observed := c.observed, obj := o, sel := s }
  have hfin : finishEntry R C c.name (.str c.cls) c.observed (some (selDict c.sel))
      (some (.list (c.secs.map fun p => PVal.str p.1))) none (pvTruth c.obj) =
      .ok (c', some ((c.secs.map (·.1)).map some)) := by
    have hm : (c.secs.map fun p => (PVal.str p.1 : PVal F)) = (c.secs.map (·.1)).map PVal.str := by
      simp [List.map_map, Function.comp_def]
    rw [hm]
    simp only [finishEntry, secNamesOpt, className, secNames, mapM_secName, initNames, construct_ok R c k h1 h2, h1, p1, s1,
      bind, Except.bind, pure, Except.pure]
    rfl
  have hload : loadEntry R C c.name (entryItems c c.cls) =
      .ok (c', some ((c.secs.map (·.1)).map some)) (pvTruth c.obj) := by
    have e1 : popKey "type" (entryItems c c.cls) = .ok (PVal.str c.cls)
      (("observed", c.observed) :: (pvTruth c.obj ++ [("secondary",
        .list (c.secs.map fun p => PVal.str p.1)), ("selection", selDict c.sel)])) := rfl
    have e2 : popKey "observed" (("observed", c.observed) :: (pvTruth c.obj ++ [("secondary",
        .list (c.secs.map fun p => PVal.str p.1)), ("selection", selDict c.sel)])) =
        .ok c.observed (pvTruth c.obj ++ [("secondary",
          .list (c.secs.map fun p => PVal.str p.1)), ("selection", selDict c.sel)]) := rfl
    have e3 : popOpt "selection" (pvTruth c.obj ++ [("secondary",
        .list (c.secs.map fun p => PVal.str p.1)), ("selection", selDict c.sel)]) =
        .ok (some (selDict c.sel)) (pvTruth c.obj ++ [("secondary",
          .list (c.secs.map fun p => PVal.str p.1))]) := by
      unfold popOpt
      rw [getOpt_append, hg _ (by decide), erase_append_right _ _ _ (hr' _ (by decide))]
      simp [Dict.get?, Dict.erase]
    have e4 : popOpt "secondary" (pvTruth c.obj ++ [("secondary",
        PVal.list (c.secs.map fun p => PVal.str p.1))]) =
        .ok (some (.list (c.secs.map fun p => PVal.str p.1))) (pvTruth c.obj) := by
      unfold popOpt
      rw [getOpt_append, hg _ (by decide), erase_append_right _ _ _ (hr' _ (by decide))]
      simp [Dict.get?, Dict.erase]
    have e5 : popOpt "init variables" (pvTruth c.obj) = .ok none (pvTruth c.obj) := by
      unfold popOpt; rw [hg _ (by decide)]
    unfold loadEntry
    rw [bind_of_ok e1, bind_of_ok e2, bind_of_ok e3, bind_of_ok e4, bind_of_ok e5,
      bind_of_ok (get_apply _), hfin]
    rfl
  refine ⟨c', .dict (pvTruth c.obj), ?_, rfl, rfl, rfl, rfl, p2, s2, rfl, rfl⟩
  simp only [onEntry, hload]

/-! ### The entries `to_dict` writes -/

namespace Spec

/-- The addresses reachable from `i`, including `i`. -/
inductive NameBelow (objs : Dict (CSampler F)) (i : String) : String → Prop
  | self : NameBelow objs i i
  | sec {j k m : String} {c : CSampler F} : NameBelow objs i j → Dict.get? objs j = some c →
      (k, m) ∈ c.secs → NameBelow objs i m

end Spec

theorem NameBelow.head {objs : Dict (CSampler F)} {i j k m : String} {c : CSampler F}
    (hc : Dict.get? objs i = some c) (hm : (k, j) ∈ c.secs) (h : NameBelow objs j m) :
    NameBelow objs i m := by
  induction h with
  | self => exact .sec .self hc hm
  | sec _ h1 h2 ih => exact .sec ih h1 h2

theorem NameBelow.cases_head {objs : Dict (CSampler F)} {i m : String} (h : NameBelow objs i m) :
    m = i ∨ ∃ c k j, Dict.get? objs i = some c ∧ (k, j) ∈ c.secs ∧ NameBelow objs j m := by
  induction h with
  | self => exact .inl rfl
  | @sec j k m c _ h1 h2 ih =>
    rcases ih with rfl | ⟨c', k', j', e1, e2, e3⟩
    · exact .inr ⟨c, k, m, h1, h2, .self⟩
    · exact .inr ⟨c', k', j', e1, e2, .sec e3 h1 h2⟩

theorem NameBelow.used {y : CSynth F} {i m : String} (hi : Used y i) (h : NameBelow y.objs i m) :
    Used y m := by
  induction h with
  | self => exact hi
  | sec _ h1 h2 ih => exact .sec ih h1 h2

/-- The entries written so far: keys are names of used samplers, and the samplers in `D` have
their final entries. -/
structure Inv (y : CSynth F) (d : Dict (PVal F)) (D : String → Prop) : Prop where
  nodup : (Dict.keys d).Nodup
  keys : ∀ k ∈ Dict.keys d, ∃ j c, Used y j ∧ Dict.get? y.objs j = some c ∧ c.name = k
  sub : ∀ j, D j → Used y j
  done : ∀ j c, D j → Dict.get? y.objs j = some c →
    Dict.get? d c.name = some (entryOf c c.cls)

theorem Inv.set {R : Registry F} {rank : String → Nat} {y : CSynth F} (hy : Config R rank y)
    {d : Dict (PVal F)} {D : String → Prop} (h : Inv y d D) {i : String} {c : CSampler F}
    (hi : Used y i) (hc : Dict.get? y.objs i = some c) :
    Inv y (Dict.set d c.name (entryOf c c.cls)) (fun j => D j ∨ j = i) := by
  refine ⟨Dict.nodup_keys_set _ _ _ h.nodup, ?_, ?_, ?_⟩
  · intro k hk
    rw [Dict.keys_set] at hk
    split at hk
    · exact h.keys k hk
    · rcases List.mem_append.1 hk with hk | hk
      · exact h.keys k hk
      · simp at hk; subst hk; exact ⟨i, c, hi, hc, rfl⟩
  · rintro j (hj | rfl)
    · exact h.sub j hj
    · exact hi
  · intro j c' hj hc'
    by_cases e : c.name = c'.name
    · have hij : i = j := hy.names i j c c' hi (hj.elim (h.sub j) (fun e => e ▸ hi)) hc hc' e
      subst hij
      rw [hc] at hc'; cases hc'
      exact Dict.get?_set_self ..
    · rw [Dict.get?_set_ne _ _ e]
      rcases hj with hj | rfl
      · exact h.done j c' hj hc'
      · rw [hc] at hc'; cases hc'; exact absurd rfl e

theorem Inv.mono {y : CSynth F} {d : Dict (PVal F)} {D D' : String → Prop} (h : Inv y d D)
    (hs : ∀ j, D' j → D j) : Inv y d D' :=
  ⟨h.nodup, h.keys, fun j hj => h.sub j (hs j hj), fun j c hj => h.done j c (hs j hj)⟩

theorem secObjects_inv {R : Registry F} {rank : String → Nat} {y : CSynth F}
    (hy : Config R rank y) (fuel : Nat) :
    ∀ (i : String) (d : Dict (PVal F)) (D : String → Prop), Used y i → rank i < fuel →
      Inv y d D → ∃ d' new, secObjects y.objs fuel i d = .ok d' ∧
        Inv y d' (fun j => D j ∨ NameBelow y.objs i j) ∧ Dict.keys d' = Dict.keys d ++ new ∧
        ∀ k ∈ new, ∃ j c, NameBelow y.objs i j ∧ Dict.get? y.objs j = some c ∧ c.name = k := by
  induction fuel with
  | zero => intro i d D _ h; omega
  | succ n ih =>
    intro i d D hi hr hinv
    obtain ⟨c, hc, hok⟩ := hy.sampler i hi
    -- the loop over the secondaries
    have loop : ∀ (l : Dict String) (d : Dict (PVal F)) (D : String → Prop),
        (∀ p ∈ l, p ∈ c.secs) → Inv y d D →
        ∃ d' new, l.foldlM (fun d p => secObjects y.objs n p.2 d) d = .ok d' ∧
          Inv y d' (fun j => D j ∨ ∃ k m, (k, m) ∈ l ∧ NameBelow y.objs m j) ∧
          Dict.keys d' = Dict.keys d ++ new ∧
          ∀ k ∈ new, ∃ j c, NameBelow y.objs i j ∧ Dict.get? y.objs j = some c ∧ c.name = k := by
      intro l
      induction l with
      | nil =>
        intro d D _ hinv
        exact ⟨d, [], rfl, hinv.mono (by simp), by simp, by simp⟩
      | cons p l ihl =>
        intro d D hl hinv
        obtain ⟨k, m⟩ := p
        have hm : (k, m) ∈ c.secs := hl _ (List.mem_cons_self ..)
        obtain ⟨d1, new1, e1, e2, e3, e4⟩ := ih m d D (.sec hi hc hm)
          (by have := hy.acyclic i c k m hi hc hm; omega) hinv
        obtain ⟨d2, new2, f1, f2, f3, f4⟩ := ihl d1 _ (fun q hq => hl q (List.mem_cons_of_mem _ hq)) e2
        refine ⟨d2, new1 ++ new2, ?_, f2.mono ?_, by rw [f3, e3, List.append_assoc], ?_⟩
        · rw [List.foldlM_cons, e1]; exact f1
        · rintro j (hj | ⟨k', m', hm', hb⟩)
          · exact .inl (.inl hj)
          · rcases List.mem_cons.1 hm' with e | hm'
            · cases e; exact .inl (.inr hb)
            · exact .inr ⟨k', m', hm', hb⟩
        · intro k' hk'
          rcases List.mem_append.1 hk' with hk' | hk'
          · obtain ⟨j, c', a1, a2, a3⟩ := e4 k' hk'
            exact ⟨j, c', NameBelow.head hc hm a1, a2, a3⟩
          · exact f4 k' hk'
    obtain ⟨d1, new, e1, e2, e3, e4⟩ := loop c.secs d D (fun _ h => h) hinv
    have hset := e2.set hy hi hc
    have hres : secObjects y.objs (n + 1) i d = .ok (Dict.set d1 c.name (entryOf c c.cls)) := by
      simp only [secObjects, hc]
      rw [e1]; rfl
    refine ⟨_, if c.name ∈ Dict.keys d1 then new else new ++ [c.name], hres, hset.mono ?_, ?_, ?_⟩
    · rintro j (hj | hj)
      · exact .inl (.inl hj)
      · rcases NameBelow.cases_head hj with rfl | ⟨c', k, m, h1, h2, h3⟩
        · exact .inr rfl
        · rw [hc] at h1; cases h1
          exact .inl (.inr ⟨k, m, h2, h3⟩)
    · rw [Dict.keys_set]
      split <;> simp [e3]
    · intro k hk
      split at hk
      · exact e4 k hk
      · rcases List.mem_append.1 hk with hk | hk
        · exact e4 k hk
        · simp at hk; subst hk; exact ⟨i, c, .self, hc, rfl⟩

/-- The names of attached samplers and of the derived luminosity sampler. -/
def rootKey (y : CSynth F) (k : String) : Bool :=
  decide (k ∈ Dict.keys y.aux) || decide (y.derived.map (nameAt y.objs) = some k)

theorem nameAt_of_get? {objs : Dict (CSampler F)} {i : String} {c : CSampler F}
    (h : Dict.get? objs i = some c) : nameAt objs i = c.name := by
  unfold nameAt; rw [h]

theorem rootKey_iff {R : Registry F} {rank : String → Nat} {y : CSynth F} (hy : Config R rank y)
    {j : String} {c : CSampler F} (hj : Used y j) (hc : Dict.get? y.objs j = some c) :
    rootKey y c.name = true ↔ Root y j := by
  unfold rootKey
  rw [Bool.or_eq_true, decide_eq_true_eq, decide_eq_true_eq]
  constructor
  · rintro (h | h)
    · obtain ⟨⟨k, i⟩, hm, rfl⟩ := List.mem_map.1 h
      have hr : Root y i := .inl ⟨_, hm⟩
      obtain ⟨ci, hci, _⟩ := hy.sampler i (.root hr)
      have := hy.names i j ci c (.root hr) hj hci hc (hy.auxKey _ _ _ hm hci).symm
      exact this ▸ hr
    · cases hd : y.derived with
      | none => rw [hd] at h; cases h
      | some i =>
        rw [hd] at h
        have hr : Root y i := .inr hd
        obtain ⟨ci, hci, _⟩ := hy.sampler i (.root hr)
        simp only [Option.map_some, Option.some.injEq, nameAt_of_get? hci] at h
        have := hy.names i j ci c (.root hr) hj hci hc h
        exact this ▸ hr
  · rintro (⟨k, hm⟩ | h)
    · rw [← hy.auxKey _ _ _ hm hc]
      exact .inl (List.mem_map.2 ⟨_, hm, rfl⟩)
    · right
      rw [h, Option.map_some, nameAt_of_get? hc]

theorem below_root {R : Registry F} {rank : String → Nat} {y : CSynth F} (hy : Config R rank y)
    {i j : String} (hi : Used y i) (h : NameBelow y.objs i j) : j = i ∨ ¬ Root y j := by
  cases h with
  | self => exact .inl rfl
  | @sec m k _ c hb hc hm => exact .inr (hy.root m c k j (NameBelow.used hi hb) hc hm)

/-- Writing the entry of a root and of everything below it. -/
theorem addEntry_inv {R : Registry F} {rank : String → Nat} {y : CSynth F} (hy : Config R rank y)
    {fuel : Nat} {i : String} {c : CSampler F} {d : Dict (PVal F)} {D : String → Prop}
    (hi : Root y i) (hc : Dict.get? y.objs i = some c) (hf : rank i < fuel) (hinv : Inv y d D)
    (hD : ¬ D i) (hk : c.name ∉ Dict.keys d) (key type : CSampler F → String)
    (hkey : key c = c.name) (htype : c.secs = [] → type c = c.cls) :
    ∃ d' : Dict (PVal F), addEntry fuel y.objs d i key type = .ok d' ∧
      Inv y d' (fun j => D j ∨ NameBelow y.objs i j) ∧
      (Dict.keys d').filter (rootKey y) = (Dict.keys d).filter (rootKey y) ++ [c.name] := by
  have hu : Used y i := .root hi
  have hrk : rootKey y c.name = true := (rootKey_iff hy hu hc).2 hi
  unfold addEntry
  rw [hc]
  simp only [hkey]
  by_cases hs : c.secs = []
  · rw [hs, if_pos (by rfl), htype hs]
    refine ⟨_, rfl, (hinv.set hy hu hc).mono ?_, ?_⟩
    · rintro j (hj | hj)
      · exact .inl hj
      · rcases NameBelow.cases_head hj with rfl | ⟨c', k, m, h1, h2, _⟩
        · exact .inr rfl
        · rw [hc] at h1; cases h1; rw [hs] at h2; simp at h2
    · rw [Dict.keys_set, if_neg hk, List.filter_append]
      simp [hrk]
  · rw [if_neg (by simpa using hs)]
    have hinv1 : Inv y (Dict.set d c.name (entryOf c (type c))) D := by
      refine ⟨Dict.nodup_keys_set _ _ _ hinv.nodup, ?_, hinv.sub, ?_⟩
      · intro k hk'
        rw [Dict.keys_set, if_neg hk] at hk'
        rcases List.mem_append.1 hk' with hk' | hk'
        · exact hinv.keys k hk'
        · simp at hk'; subst hk'; exact ⟨i, c, hu, hc, rfl⟩
      · intro j c' hj hc'
        have hne : c.name ≠ c'.name := fun e =>
          hD (hy.names i j c c' hu (hinv.sub j hj) hc hc' e ▸ hj)
        rw [Dict.get?_set_ne _ _ hne]
        exact hinv.done j c' hj hc'
    obtain ⟨d', new, e1, e2, e3, e4⟩ := secObjects_inv hy fuel i _ D hu hf hinv1
    refine ⟨d', e1, e2, ?_⟩
    have hks : Dict.keys (Dict.set d c.name (entryOf c (type c))) = Dict.keys d ++ [c.name] := by
      rw [Dict.keys_set, if_neg hk]
    rw [hks] at e3
    have hnew : new.filter (rootKey y) = [] := by
      rw [List.filter_eq_nil_iff]
      intro k hk' hr
      obtain ⟨j, c', a1, a2, rfl⟩ := e4 k hk'
      have hroot := (rootKey_iff hy (NameBelow.used hu a1) a2).1 hr
      rcases below_root hy hu a1 with rfl | hn
      · rw [hc] at a2; cases a2
        have := e2.nodup
        rw [e3, List.nodup_append] at this
        exact this.2.2 c.name (by simp) c.name hk' rfl
      · exact hn hroot
    rw [e3, List.filter_append, hnew, List.filter_append]
    simp [hrk]

theorem used_iff {y : CSynth F} {j : String} :
    Used y j ↔ ∃ i, Root y i ∧ NameBelow y.objs i j := by
  constructor
  · intro h
    induction h with
    | root h => exact ⟨_, h, .self⟩
    | sec _ h1 h2 ih => obtain ⟨i, a, b⟩ := ih; exact ⟨i, a, .sec b h1 h2⟩
  · rintro ⟨i, a, b⟩; exact NameBelow.used (.root a) b

/-- What `to_dict` writes about the samplers. -/
theorem auxDict_ok {R : Registry F} {rank : String → Nat} {y : CSynth F} (hy : Config R rank y)
    {fuel : Nat} (hf : ∀ i, Root y i → rank i < fuel) :
    ∃ aux, auxDict fuel y = .ok aux ∧ Inv y aux (Used y) ∧
      (Dict.keys aux).filter (rootKey y) =
        Dict.keys y.aux ++ (y.derived.map (nameAt y.objs)).toList := by
  -- the attached samplers
  have loop : ∀ (l p : Dict String) (d : Dict (PVal F)), y.aux = p ++ l →
      Inv y d (fun j => ∃ k i, (k, i) ∈ p ∧ NameBelow y.objs i j) →
      (Dict.keys d).filter (rootKey y) = Dict.keys p →
      ∃ d', l.foldlM (fun d p => addEntry fuel y.objs d p.2 (fun _ => p.1) (·.cls)) d = .ok d' ∧
        Inv y d' (fun j => ∃ k i, (k, i) ∈ y.aux ∧ NameBelow y.objs i j) ∧
        (Dict.keys d').filter (rootKey y) = Dict.keys y.aux := by
    intro l
    induction l with
    | nil =>
      intro p d hp hinv hk
      simp only [List.append_nil] at hp
      subst hp
      exact ⟨d, rfl, hinv, hk⟩
    | cons q l ih =>
      intro p d hp hinv hk
      obtain ⟨k, i⟩ := q
      have hm : (k, i) ∈ y.aux := by rw [hp]; simp
      have hroot : Root y i := .inl ⟨k, hm⟩
      obtain ⟨c, hc, _⟩ := hy.sampler i (.root hroot)
      have hkc := hy.auxKey k i c hm hc
      have hnd := hy.auxNodup
      have hkp : k ∉ Dict.keys p := by
        rw [hp] at hnd
        simp only [Dict.keys, List.map_append, List.map_cons, List.nodup_append] at hnd
        intro hm'
        exact hnd.2.2 k hm' k (by simp) rfl
      have hD : ¬ ∃ k' i', (k', i') ∈ p ∧ NameBelow y.objs i' i := by
        rintro ⟨k', i', hm', hb⟩
        have hm'' : (k', i') ∈ y.aux := by rw [hp]; exact List.mem_append_left _ hm'
        rcases below_root hy (.root (.inl ⟨k', hm''⟩)) hb with e | hn
        · subst e
          have := hy.auxKey k' i c hm'' hc
          rw [← hkc] at this; subst this
          exact hkp (List.mem_map.2 ⟨_, hm', rfl⟩)
        · exact hn hroot
      have hkd : c.name ∉ Dict.keys d := by
        intro hm'
        have : c.name ∈ (Dict.keys d).filter (rootKey y) :=
          List.mem_filter.2 ⟨hm', (rootKey_iff hy (.root hroot) hc).2 hroot⟩
        rw [hk, ← hkc] at this
        exact hkp this
      obtain ⟨d1, e1, e2, e3⟩ := addEntry_inv hy hroot hc (hf i hroot) hinv hD hkd (fun _ => k)
        (·.cls) hkc (fun _ => rfl)
      obtain ⟨d2, f1, f2, f3⟩ := ih (p ++ [(k, i)]) d1 (by rw [hp]; simp) (e2.mono (by
        rintro j ⟨k', i', hm', hb⟩
        rcases List.mem_append.1 hm' with hm' | hm'
        · exact .inl ⟨k', i', hm', hb⟩
        · simp at hm'; obtain ⟨rfl, rfl⟩ := hm'; exact .inr hb)) (by
        rw [e3, hk, ← hkc]; simp [Dict.keys])
      refine ⟨d2, ?_, f2, f3⟩
      rw [List.foldlM_cons, e1]; exact f1
  obtain ⟨d, h1, h2, h3⟩ := loop y.aux [] [] rfl
    ⟨by simp [Dict.keys], by simp [Dict.keys], by simp, by simp⟩ rfl
  unfold auxDict
  cases hd : y.derived with
  | none =>
    refine ⟨d, ?_, h2.mono ?_, ?_⟩
    · rw [h1]; rfl
    · intro j hj
      obtain ⟨i, hr, hb⟩ := used_iff.1 hj
      rcases hr with ⟨k, hm⟩ | hr
      · exact ⟨k, i, hm, hb⟩
      · rw [hd] at hr; cases hr
    · rw [h3]; simp
  | some i =>
    have hroot : Root y i := .inr hd
    obtain ⟨c, hc, _⟩ := hy.sampler i (.root hroot)
    obtain ⟨g1, g2⟩ := hy.derived i c hd hc
    have hatt : ∀ k, (k, i) ∉ y.aux := by
      intro k hm
      have := hy.attached k i c hm hc
      rw [g1] at this; cases this
    have hD : ¬ ∃ k' i', (k', i') ∈ y.aux ∧ NameBelow y.objs i' i := by
      rintro ⟨k', i', hm', hb⟩
      rcases below_root hy (.root (.inl ⟨k', hm'⟩)) hb with e | hn
      · subst e; exact hatt k' hm'
      · exact hn hroot
    have hkd : c.name ∉ Dict.keys d := by
      intro hm'
      have : c.name ∈ (Dict.keys d).filter (rootKey y) :=
        List.mem_filter.2 ⟨hm', (rootKey_iff hy (.root hroot) hc).2 hroot⟩
      rw [h3] at this
      obtain ⟨⟨k, i'⟩, hm, e⟩ := List.mem_map.1 this
      have hr' : Root y i' := .inl ⟨k, hm⟩
      obtain ⟨c', hc', _⟩ := hy.sampler i' (.root hr')
      have hkc := hy.auxKey k i' c' hm hc'
      have := hy.names i' i c' c (.root hr') (.root hroot) hc' hc (hkc.symm.trans e)
      subst this
      exact hatt k hm
    obtain ⟨d1, e1, e2, e3⟩ := addEntry_inv hy hroot hc (hf i hroot) h2 hD hkd (·.name)
      (·.name) rfl g2
    refine ⟨d1, ?_, e2.mono ?_, ?_⟩
    · rw [h1]; exact e1
    · intro j hj
      obtain ⟨i', hr, hb⟩ := used_iff.1 hj
      rcases hr with ⟨k, hm⟩ | hr
      · exact .inl ⟨k, i', hm, hb⟩
      · rw [hd] at hr; cases hr; exact .inr hb
    · rw [e3, h3]
      simp [nameAt_of_get? hc]

/-! ### Reading the entries back -/

theorem loadEntries_ok (R : Registry F) (C : Conv F)
    (P : String → CSampler F × Option (List (Option String)) → Prop) (d : Dict (PVal F))
    (h : ∀ k v, (k, v) ∈ d → ∃ r v', onEntry R C k v = (.ok r, v') ∧ P k r) :
    ∃ rs rest, loadEntries R C d = (.ok rs, rest) ∧ rs.map Prod.fst = d.map Prod.fst ∧
      ∀ k r, (k, r) ∈ rs → P k r := by
  induction d with
  | nil => exact ⟨[], [], rfl, rfl, by simp⟩
  | cons q d ih =>
    obtain ⟨k, v⟩ := q
    obtain ⟨r, v', h1, h2⟩ := h k v (List.mem_cons_self ..)
    obtain ⟨rs, rest, e1, e2, e3⟩ := ih fun k v hm => h k v (List.mem_cons_of_mem _ hm)
    refine ⟨(k, r) :: rs, (k, v') :: rest, by simp only [loadEntries, h1, e1], by simp [e2], ?_⟩
    intro k' r' hm
    rcases List.mem_cons.1 hm with e | hm
    · cases e; exact h2
    · exact e3 k' r' hm

theorem active_map_some (l : List String) : active (l.map some) = l := by
  induction l with
  | nil => rfl
  | cons x l ih => simp [active, ih]

/-- What an entry gives before linking. -/
def Rebuilt (R : Registry F) (y : CSynth F) (k : String) (r : CSampler F × Option (List (Option String))) : Prop :=
  ∃ j c, Used y j ∧ Dict.get? y.objs j = some c ∧ c.name = k ∧
    r.2 = some ((c.secs.map (·.1)).map some) ∧
    r.1.cls = c.cls ∧ r.1.name = c.name ∧ r.1.obsName = c.obsName ∧ r.1.observed = c.observed ∧
    truthOf r.1.obj = truthOf c.obj ∧ SameSel R c.sel r.1.sel ∧ r.1.secs = [] ∧
    r.1.isSecondary = false

theorem get?_map_of_mem {α β : Type} (f : α → β) (d : Dict α) (k : String) :
    Dict.get? (d.map fun p => (p.1, f p.2)) k = (Dict.get? d k).map f := by
  induction d with
  | nil => rfl
  | cons p d ih =>
    obtain ⟨k', v⟩ := p
    by_cases h : k' = k
    · simp [Dict.get?, h]
    · simp [Dict.get?, h, ih]

/-- Attaching distinct samplers that are not secondaries. -/
theorem attach_roots (R : Registry F) (l : List String) (y : CSynth F) (hn : l.Nodup)
    (hd : ∀ k ∈ l, k ∉ Dict.keys y.aux)
    (h : ∀ k ∈ l, ∃ c, Dict.get? y.objs k = some c ∧ c.name = k ∧ c.isSecondary = false ∧
      R.derived c.cls = false) :
    l.foldlM (attachOne R) y = .ok { y with aux := y.aux ++ l.map fun k => (k, k) } := by
  induction l generalizing y with
  | nil => simp [pure, Except.pure]
  | cons k l ih =>
    rw [List.nodup_cons] at hn
    obtain ⟨c, h1, h2, h3, h4⟩ := h k (List.mem_cons_self ..)
    have hk : k ∉ Dict.keys y.aux := hd k (List.mem_cons_self ..)
    have hhas : Dict.has y.aux c.name = false := by
      rw [h2, Dict.has, (Dict.get?_eq_none_iff _ _).2 hk]; rfl
    have hstep : attachOne R y k = .ok { y with aux := y.aux ++ [(k, k)] } := by
      unfold attachOne lookup
      rw [h1]
      simp only [bind, Except.bind, h4, h3, hhas, Bool.false_eq_true, if_false, pure, Except.pure]
      rw [h2, Dict.set_append_of_not_mem _ _ _ hk]
    rw [List.foldlM_cons, hstep]
    show l.foldlM (attachOne R) { y with aux := y.aux ++ [(k, k)] } = _
    rw [ih { y with aux := y.aux ++ [(k, k)] } hn.2 ?_ (fun k' hk' => h k' (List.mem_cons_of_mem _ hk'))]
    · simp
    · intro k' hk' hm
      simp only [Dict.keys, List.map_append, List.mem_append, List.map_cons, List.map_nil,
        List.mem_singleton] at hm
      rcases hm with hm | rfl
      · exact hd k' (List.mem_cons_of_mem _ hk') hm
      · exact hn.1 hk'

theorem attach_ok {R : Registry F} {rank : String → Nat} {y : CSynth F} (hy : Config R rank y)
    {aux : Dict (PVal F)} (hinv : Inv y aux (Used y))
    (hkeys : (Dict.keys aux).filter (rootKey y) =
        Dict.keys y.aux ++ (y.derived.map (nameAt y.objs)).toList)
    (y0 : CSynth F) (ha0 : y0.aux = []) (hd0 : y0.derived = none)
    (rs : Dict (CSampler F × Option (List (Option String))))
    (hrs : rs.map Prod.fst = Dict.keys aux) (hP : ∀ k r, (k, r) ∈ rs → Rebuilt R y k r) :
    ∃ objs, attach R y0 rs = .ok { y0 with
        objs := objs, aux := y.aux.map (fun p => (p.1, p.1))
        derived := y.derived.map (nameAt y.objs) } ∧
      ∀ i c, Used y i → Dict.get? y.objs i = some c →
        ∃ c', Dict.get? objs c.name = some c' ∧ SameSampler R c c' ∧
          (c'.isSecondary = true ↔ ¬ Root y i) := by
  -- names
  have hmem : ∀ i c, Used y i → Dict.get? y.objs i = some c → c.name ∈ Dict.keys aux := by
    intro i c hi hc
    rw [← Dict.get?_isSome_iff, hinv.done i c hi hc]; rfl
  have hnd : (rs.map Prod.fst).Nodup := hrs ▸ hinv.nodup
  have hfind : ∀ i c, Used y i → Dict.get? y.objs i = some c → ∃ r, (c.name, r) ∈ rs := by
    intro i c hi hc
    have := hmem i c hi hc
    rw [← hrs] at this
    obtain ⟨⟨k, r⟩, hm, e⟩ := List.mem_map.1 this
    cases e
    exact ⟨r, hm⟩
  -- the entry of a sampler is about that sampler
  have hself : ∀ i c r, Used y i → Dict.get? y.objs i = some c → (c.name, r) ∈ rs →
      r.2 = some ((c.secs.map (·.1)).map some) ∧
      r.1.cls = c.cls ∧ r.1.name = c.name ∧ r.1.obsName = c.obsName ∧
      r.1.observed = c.observed ∧ truthOf r.1.obj = truthOf c.obj ∧ SameSel R c.sel r.1.sel ∧
      r.1.secs = [] ∧ r.1.isSecondary = false := by
    intro i c r hi hc hm
    obtain ⟨j, c', hj, hc', e, rest⟩ := hP _ _ hm
    have := hy.names i j c c' hi hj hc hc' e.symm
    subst this
    rw [hc] at hc'; cases hc'
    exact rest
  let lists := rs.filterMap fun p => p.2.2.map fun l => (p.1, l)
  let objs0 : Dict (CSampler F) := rs.map fun p => (p.1, p.2.1)
  have hlm : ∀ k l, (k, l) ∈ lists ↔ ∃ r, (k, r) ∈ rs ∧ r.2 = some l := by
    intro k l
    simp only [lists, List.mem_filterMap]
    constructor
    · rintro ⟨⟨k', r⟩, hm, e⟩
      cases hr : r.2 with
      | none => simp [hr] at e
      | some l' => simp [hr] at e; obtain ⟨rfl, rfl⟩ := e; exact ⟨r, hm, hr⟩
    · rintro ⟨r, hm, hr⟩; exact ⟨(k, r), hm, by simp [hr]⟩
  have hlk : lists.map Prod.fst = rs.map Prod.fst := by
    have : ∀ p ∈ rs, ∃ l, p.2.2 = some l := by
      rintro ⟨k, r⟩ hm
      obtain ⟨j, c, _, _, _, e, _⟩ := hP k r hm
      exact ⟨_, e⟩
    show (rs.filterMap fun p => p.2.2.map fun l => (p.1, l)).map Prod.fst = rs.map Prod.fst
    clear hlm hself hfind hnd hP hrs lists objs0
    induction rs with
    | nil => rfl
    | cons p rs ih =>
      obtain ⟨l, hl⟩ := this p (List.mem_cons_self ..)
      rw [List.filterMap_cons, hl]
      simp only [Option.map_some, List.map_cons]
      rw [ih fun q hq => this q (List.mem_cons_of_mem _ hq)]
  have hok : Dict.keys objs0 = Dict.keys aux := by
    rw [← hrs]; simp [objs0, Dict.keys, List.map_map, Function.comp_def]
  have hget0 : ∀ k r, (k, r) ∈ rs → Dict.get? objs0 k = some r.1 := by
    intro k r hm
    show Dict.get? (rs.map fun p => (p.1, p.2.1)) k = _
    rw [get?_map_of_mem (fun (p : CSampler F × Option (List (Option String))) => p.1),
      Dict.get?_of_mem hnd hm]
    rfl
  have hname : ∀ i c, Used y i → Dict.get? y.objs i = some c → nameAt objs0 c.name = c.name := by
    intro i c hi hc
    obtain ⟨r, hm⟩ := hfind i c hi hc
    rw [nameAt_of_get? (hget0 _ _ hm)]
    exact (hself i c r hi hc hm).2.2.1
  -- secondaries of used samplers
  have hsec : ∀ i c n, Used y i → Dict.get? y.objs i = some c → n ∈ c.secs.map (·.1) →
      ∃ j c', (n, j) ∈ c.secs ∧ Used y j ∧ Dict.get? y.objs j = some c' ∧ c'.name = n := by
    intro i c n hi hc hm
    obtain ⟨⟨n', j⟩, hm', rfl⟩ := List.mem_map.1 hm
    have hj : Used y j := .sec hi hc hm'
    obtain ⟨c', hc', _⟩ := hy.sampler j hj
    exact ⟨j, c', hm', hj, hc', (hy.secKey i c n' j c' hi hc hm' hc').symm⟩
  obtain ⟨l1, l2⟩ := linkEntries_spec lists objs0
  obtain ⟨objs, hobjs⟩ := l1.2 (by
    intro p l hm s hs
    obtain ⟨r, hm', hr⟩ := (hlm p l).1 hm
    obtain ⟨i, c, hi, hc, rfl, e, _⟩ := hP p r hm'
    rw [e] at hr; cases hr
    rw [active_map_some] at hs
    obtain ⟨j, c', _, hj, hc', rfl⟩ := hsec i c s hi hc hs
    rw [hok]
    exact ⟨hmem i c hi hc, hmem j c' hj hc'⟩)
  have hL := l2 objs hobjs
  -- which names are linked
  have hdrop : ∀ i c, Used y i → Dict.get? y.objs i = some c →
      (c.name ∈ lists.flatMap (fun q => active q.2) ↔ ¬ Root y i) := by
    intro i c hi hc
    rw [List.mem_flatMap]
    constructor
    · rintro ⟨⟨p, l⟩, hm, hs⟩
      obtain ⟨r, hm', hr⟩ := (hlm p l).1 hm
      obtain ⟨i', c', hi', hc', rfl, e, _⟩ := hP p r hm'
      rw [e] at hr; cases hr
      simp only [active_map_some] at hs
      obtain ⟨j, cj, hm2, hj, hcj, e⟩ := hsec i' c' _ hi' hc' hs
      have := hy.names j i cj c hj hi hcj hc e
      subst this
      exact hy.root i' c' _ j hi' hc' hm2
    · intro hn
      cases hi with
      | root h => exact absurd h hn
      | @sec i' _ k c' hi' hc' hm' =>
        obtain ⟨r, hm2⟩ := hfind i' c' hi' hc'
        refine ⟨(c'.name, (c'.secs.map (·.1)).map some),
          (hlm _ _).2 ⟨r, hm2, (hself i' c' r hi' hc' hm2).1⟩, ?_⟩
        simp only [active_map_some]
        rw [← hy.secKey i' c' k i c hi' hc' hm' hc]
        exact List.mem_map.2 ⟨_, hm', rfl⟩
  -- the samplers after linking
  have hfinal : ∀ i c, Used y i → Dict.get? y.objs i = some c →
      ∃ c', Dict.get? objs c.name = some c' ∧ SameSampler R c c' ∧
        (c'.isSecondary = true ↔ ¬ Root y i) := by
    intro i c hi hc
    obtain ⟨r, hm⟩ := hfind i c hi hc
    obtain ⟨s0, s1, s2, s3, s4, s5, s6, s7, s8⟩ := hself i c r hi hc hm
    obtain ⟨c', g1, g2, g3, g4⟩ := hL.get c.name r.1 (hget0 _ _ hm)
    refine ⟨c', g1, ⟨g2.1.trans s1, g2.2.1.trans s2, g2.2.2.1.trans s3, g2.2.2.2.1.trans s4,
      by rw [g2.2.2.2.2.1]; exact s5, by rw [g2.2.2.2.2.2]; exact s6, ?_⟩, ?_⟩
    · have hml := (hlm c.name ((c.secs.map (·.1)).map some)).2 ⟨r, hm, s0⟩
      rw [g3, s7, secsAll_mem (nameAt objs0) lists c.name _ [] (hlk ▸ hnd) hml,
        active_map_some]
      have hnn : (c.secs.map (·.1)).Nodup := by
        obtain ⟨c2, hc2, hok2⟩ := hy.sampler i hi
        rw [hc] at hc2; cases hc2
        obtain ⟨_, _, _, _, _, _, _, h⟩ := hok2
        exact h
      have hnames : ∀ n ∈ c.secs.map (·.1), nameAt objs0 n = n := by
        intro n hn
        obtain ⟨j, cj, _, hj, hcj, rfl⟩ := hsec i c n hi hc hn
        exact hname j cj hj hcj
      have hfold : ∀ (l : List String), (∀ n ∈ l, nameAt objs0 n = n) → ∀ d : Dict String,
          l.foldl (fun d n => Dict.set d (nameAt objs0 n) n) d =
          (l.map fun n => (n, n)).foldl (fun d p => Dict.set d p.1 p.2) d := by
        intro l
        induction l with
        | nil => intro _ d; rfl
        | cons n l ih =>
          intro hl d
          simp only [List.foldl_cons, List.map_cons]
          rw [hl n (List.mem_cons_self ..), ih fun m hm => hl m (List.mem_cons_of_mem _ hm)]
      rw [hfold _ hnames, foldl_set_append]
      · simp [List.map_map, Function.comp_def]
      · simpa [Dict.keys, List.map_map, Function.comp_def] using hnn
      · simp [Dict.keys]
    · rw [g4, s8, Bool.false_or, decide_eq_true_eq]
      exact hdrop i c hi hc
  -- the roots
  have hroots : (rs.map (·.1)).filter (fun k => !(k ∈ (lists.flatMap (·.2)).filterMap id)) =
      Dict.keys y.aux ++ (y.derived.map (nameAt y.objs)).toList := by
    rw [← hkeys]
    rw [show rs.map (·.1) = Dict.keys aux from hrs]
    apply List.filter_congr
    intro k hk
    obtain ⟨i, c, hi, hc, rfl⟩ := hinv.keys k hk
    have h1 := rootKey_iff hy hi hc
    have h2 := hdrop i c hi hc
    have h3 : c.name ∈ (lists.flatMap (·.2)).filterMap id ↔
        c.name ∈ lists.flatMap (fun q => active q.2) := by
      simp only [List.mem_filterMap, List.mem_flatMap, id]
      constructor
      · rintro ⟨o, ⟨⟨p, l⟩, hm, ho⟩, rfl⟩
        refine ⟨(p, l), hm, ?_⟩
        obtain ⟨r, hm', hr⟩ := (hlm p l).1 hm
        obtain ⟨i', c', _, _, _, e, _⟩ := hP p r hm'
        rw [e] at hr; cases hr
        simp only [active_map_some]
        rw [List.mem_map] at ho
        obtain ⟨n, hn, e⟩ := ho
        cases e
        exact hn
      · rintro ⟨⟨p, l⟩, hm, ho⟩
        obtain ⟨r, hm', hr⟩ := (hlm p l).1 hm
        obtain ⟨i', c', _, _, _, e, _⟩ := hP p r hm'
        rw [e] at hr; cases hr
        simp only [active_map_some] at ho
        exact ⟨some c.name, ⟨(p, _), hm, List.mem_map.2 ⟨_, ho, rfl⟩⟩, rfl⟩
    by_cases hr : Root y i
    · have := h1.2 hr
      rw [this]
      simp only [Bool.not_eq_true', decide_eq_false_iff_not]
      rw [h3, h2]
      exact fun h => h hr
    · have : rootKey y c.name = false := by
        cases e : rootKey y c.name with
        | false => rfl
        | true => exact absurd (h1.1 e) hr
      rw [this]
      simp only [Bool.not_eq_false', decide_eq_true_eq]
      rw [h3, h2]
      exact hr
  refine ⟨objs, ?_, hfinal⟩
  have hatt : (Dict.keys y.aux).foldlM (attachOne R) { y0 with objs := objs } =
      .ok { y0 with objs := objs, aux := y.aux.map (fun p => (p.1, p.1)) } := by
    rw [attach_roots R (Dict.keys y.aux) { y0 with objs := objs } hy.auxNodup]
    · simp [ha0, Dict.keys, List.map_map, Function.comp_def]
    · simp [ha0, Dict.keys]
    · intro k hk
      obtain ⟨⟨k', i⟩, hm, rfl⟩ := List.mem_map.1 hk
      have hr : Root y i := .inl ⟨_, hm⟩
      obtain ⟨c, hc, _⟩ := hy.sampler i (.root hr)
      have e := hy.auxKey _ _ _ hm hc
      obtain ⟨c', g1, g2, g3⟩ := hfinal i c (.root hr) hc
      simp only at e ⊢
      rw [e]
      refine ⟨c', g1, g2.2.1, ?_, ?_⟩
      · cases h : c'.isSecondary with
        | false => rfl
        | true => exact absurd hr (g3.1 h)
      · rw [g2.1]; exact hy.attached _ _ _ hm hc
  have hbind : attach R y0 rs = (Dict.keys y.aux ++ (y.derived.map (nameAt y.objs)).toList).foldlM
      (attachOne R) { y0 with objs := objs } := by
    rw [← hroots]
    show (linkEntries lists objs0 >>= _) = _
    rw [hobjs]
    rfl
  rw [hbind, List.foldlM_append, hatt]
  cases hd : y.derived with
  | none =>
    simp only [Option.map_none, Option.toList_none, List.foldlM_nil, bind, Except.bind, pure,
      Except.pure]
    congr 1
    obtain ⟨⟩ := y0
    simp only at hd0
    rw [hd0]
  | some i =>
    have hr : Root y i := .inr hd
    obtain ⟨c, hc, _⟩ := hy.sampler i (.root hr)
    obtain ⟨c', g1, g2, _⟩ := hfinal i c (.root hr) hc
    have hder : R.derived c'.cls = true := by rw [g2.1]; exact (hy.derived i c hd hc).1
    simp only [Option.map_some, Option.toList_some, List.foldlM_cons, List.foldlM_nil,
      nameAt_of_get? hc, bind, Except.bind, pure, Except.pure, attachOne, lookup, g1, hder, if_true]

/-- `from_dict` in direct style. -/
def fromDictD (R : Registry F) (C : Conv F) (d : Dict (PVal F)) :
    EStateM.Result Err (Dict (PVal F)) (CSynth F) :=
  match loadHead R C d with
  | .error e => .error e d
  | .ok y => match Dict.get? d "auxiliary samplers" with
    | none => .ok y d
    | some v => match v.items with
      | .error e => .error e d
      | .ok entries =>
        match (loadEntries R C entries).1 with
        | .error e => .error e (Dict.set d "auxiliary samplers" (.dict (loadEntries R C entries).2))
        | .ok rs => match attach R y rs with
          | .error e =>
            .error e (Dict.set d "auxiliary samplers" (.dict (loadEntries R C entries).2))
          | .ok y' => .ok y' (Dict.set d "auxiliary samplers" (.dict (loadEntries R C entries).2))

theorem liftE_apply {σ α : Type} (x : Except Err α) (s : σ) :
    (liftE x : Py σ α) s = match x with
      | .ok a => .ok a s
      | .error e => .error e s := by
  cases x <;> rfl

theorem fromDict_eq (R : Registry F) (C : Conv F) (d : Dict (PVal F)) :
    fromDict R C d = fromDictD R C d := by
  unfold fromDict fromDictD
  simp only [bind_apply, get_apply, liftE_apply]
  cases loadHead R C d with
  | error e => rfl
  | ok y =>
    simp only
    cases Dict.get? d "auxiliary samplers" with
    | none => rfl
    | some v =>
      simp only [bind_apply, liftE_apply]
      cases v.items with
      | error e => rfl
      | ok entries =>
        simp only [bind_apply, modify_apply, liftE_apply]
        cases (loadEntries R C entries).1 with
        | error e => rfl
        | ok rs =>
          simp only
          cases attach R y rs <;> rfl

/-- **C41** (partial): for every configuration of samplers and selectors that can be rebuilt
from what is written about them (`Config`), `from_dict` applied to the dictionary `to_dict`
writes returns, and gives a configuration with the same seed, distributions, parameter values,
selections, attached samplers in the same order, dependency graph (secondaries of every sampler
in the same order), derived luminosity sampler and observed flags.  The full claim has no such
condition; without it it is false, see the `C41_violated_...` theorems.  That both then draw the
same survey is `C68_rebuilt_partial` (`Verif/Props/Rebuild.lean`). -/
theorem C41_roundtrip_partial (R : Registry F) (C : Conv F) (rank : String → Nat) (fuel : Nat)
    (y : CSynth F) (hy : Config R rank y) (hf : ∀ i, Root y i → rank i < fuel) :
    ∃ d y' d', toDict R fuel y = .ok d ∧ fromDict R C d = .ok y' d' ∧ SameConfig R y y' := by
  obtain ⟨aux, a1, a2, a3⟩ := auxDict_ok hy hf
  obtain ⟨y0, b1, b2, b3, b4, b5, b6, b7, b8, b9⟩ := loadHead_ok R C rank y hy aux
  obtain ⟨rs, rest, c1, c2, c3⟩ := loadEntries_ok R C (Rebuilt R y) aux (by
    intro k v hm
    obtain ⟨j, c, hj, hc, rfl⟩ := a2.keys k (List.mem_map.2 ⟨_, hm, rfl⟩)
    have hv := Dict.get?_of_mem a2.nodup hm
    rw [a2.done j c hj hc] at hv
    cases hv
    obtain ⟨c2, hc2, hok⟩ := hy.sampler j hj
    rw [hc] at hc2; cases hc2
    obtain ⟨c', v', e1, e2⟩ := onEntry_ok R C c hok
    exact ⟨_, v', e1, j, c, hj, hc, rfl, rfl, e2⟩)
  obtain ⟨objs, d1, d2⟩ := attach_ok hy a2 a3 y0 b8 b9 rs c2 c3
  refine ⟨written R y aux, { y0 with
      objs := objs
      aux := y.aux.map (fun p => (p.1, p.1))
      derived := y.derived.map (nameAt y.objs) },
    Dict.set (written R y aux) "auxiliary samplers" (.dict rest), toDict_eq R fuel y aux a1, ?_,
    ⟨b2, b3, b4, b5, b6, b7, rfl, rfl, d2⟩⟩
  have g := (get?_written R y aux).2.2.2.2.2.2
  rw [fromDict_eq]
  simp only [fromDictD, b1, g, PVal.items, c1, d1]

end Popsynth
