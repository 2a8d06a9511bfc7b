import Verif.Props.ConfigOrder
import Verif.Lemmas.Graph

/-!
# What a configuration dictionary means (C63)

`PopulationSynth.from_dict`, popsynth/population_synth.py:337-751.  `Describes R C d y` says,
without running anything, that the synthesizer `y` is what the dictionary `d` describes.
`from_dict` gives such a synthesizer, and it succeeds whenever there is one.
-/

set_option autoImplicit false
set_option linter.unusedSectionVars false

namespace Popsynth
open Spec

variable {F : Type} [LE F] [DecidableLE F]

namespace Spec

/-- The number a value stands for. -/
inductive IsNumber (C : Conv F) : PVal F → F → Prop
  | num (x : F) : IsNumber C (.num x) x
  | int (i : Int) : IsNumber C (.int i) (C.ofInt i)
  | yes : IsNumber C (.bool true) (C.ofInt 1)
  | no : IsNumber C (.bool false) (C.ofInt 0)
  | text (s : String) (x : F) : C.ofStr s = some x → IsNumber C (.str s) x
  | single (x : F) : IsNumber C (.arr [x]) x

/-- The whole number a value stands for. -/
inductive IsWhole (C : Conv F) : PVal F → Int → Prop
  | num (x : F) : IsWhole C (.num x) (C.toInt x)
  | int (i : Int) : IsWhole C (.int i) i
  | yes : IsWhole C (.bool true) 1
  | no : IsWhole C (.bool false) 0
  | text (s : String) (i : Int) : C.intOfStr s = some i → IsWhole C (.str s) i
  | single (x : F) : IsWhole C (.arr [x]) (C.toInt x)

/-- A value whose dictionaries have no key twice, like every Python dictionary. -/
inductive Proper : PVal F → Prop
  | dict (d : Dict (PVal F)) : (Dict.keys d).Nodup → (∀ k v, (k, v) ∈ d → Proper v) →
      Proper (.dict d)
  | other (v : PVal F) : (∀ d, v ≠ .dict d) → Proper v

/-- The object has exactly the listed values of its declared parameters, all admissible. -/
structure ParamsRead (C : Conv F) (decl : String → Option (ParamDecl F)) (ps : Dict (PVal F))
    (o : Obj F) : Prop where
  given : ∀ k v dc, Dict.get? ps k = some v → decl k = some dc →
    ∃ x, IsNumber C v x ∧ Admits dc x ∧ Dict.get? o.storage k = some (some x)
  unset : ∀ k, Dict.get? ps k = none ∨ decl k = none → Dict.get? o.storage k = none
  /-- nothing is stored twice -/
  once : (Dict.keys o.storage).Nodup

/-- `v` is the section of the distribution `c` of class `K`: the first key is the name of the
class, its value lists the parameters. -/
def DistSection (R : Registry F) (C : Conv F) (v : PVal F) (c : CDist F) (K : DistCls F) : Prop :=
  ∃ ps rest, v = .dict ((c.cls, .dict ps) :: rest) ∧ Dict.get? R.dists c.cls = some K ∧
    K.ctorOk = true ∧ ParamsRead C (Dict.get? K.params) ps c.obj

/-- `v` is the section of the selector `s`; the parameters may be missing.  Only parameters in
`names` are set, and `look` gives what the selector looks at. -/
def SelSection (R : Registry F) (C : Conv F) (names : SelCls F → String → Bool)
    (look : SelFlags → SelFlags) (v : PVal F) (s : CSel F) : Prop :=
  ∃ p ps rest K, v = .dict ((s.cls, p) :: rest) ∧ (p = .dict ps ∨ p = .none ∧ ps = []) ∧
    Dict.get? R.sels s.cls = some K ∧ K.ctorOk = true ∧ s.flags = look K.flags0 ∧
    ParamsRead C (fun k => if names K k then Dict.get? K.params k else none) ps s.obj

/-- An optional section: missing or `None` means no selection. -/
def SelRead (R : Registry F) (C : Conv F) (names : SelCls F → String → Bool)
    (look : SelFlags → SelFlags) (v : Option (PVal F)) (s : Option (CSel F)) : Prop :=
  ((v = none ∨ v = some .none) ∧ s = none) ∨
  ∃ v' s', v = some v' ∧ s = some s' ∧ SelSection R C names look v' s'

/-- The names under `init variables`. -/
inductive ExtraNames : Option (PVal F) → List String → Prop
  | missing : ExtraNames none []
  | nothing : ExtraNames (some .none) []
  | dict (d : Dict (PVal F)) : ExtraNames (some (.dict d)) (Dict.keys d)

/-- How the sampler `c` made for the entry `k` is called and whether it is observed: the
constructor is given as much as it takes. -/
inductive Named (K : SamplerCls F) (k : String) (obs : PVal F) (extra : List String) :
    CSampler F → Prop
  | both (c : CSampler F) : K.accepts true true extra = true → c.name = k →
      c.obsName = k ++ "_obs" → c.observed = obs → Named K k obs extra c
  | noName (c : CSampler F) : K.accepts true true extra = false →
      K.accepts false true extra = true → c.name = K.name0 → c.obsName = K.name0 ++ "_obs" →
      c.observed = obs → Named K k obs extra c
  | noObserved (c : CSampler F) : K.accepts true true extra = false →
      K.accepts false true extra = false → K.accepts true false extra = true → c.name = k →
      c.obsName = k ++ "_obs" → c.observed = K.observed0 → Named K k obs extra c
  | neither (c : CSampler F) : K.accepts true true extra = false →
      K.accepts false true extra = false → K.accepts true false extra = false →
      K.accepts false false extra = true → c.name = k → c.obsName = K.name0 ++ "_obs" →
      c.observed = obs → Named K k obs extra c

/-- `None` or a name. -/
inductive SecName : PVal F → Option String → Prop
  | nothing : SecName .none none
  | name (s : String) : SecName (.str s) (some s)

/-- A list of such. -/
inductive SecItems : List (PVal F) → List (Option String) → Prop
  | nil : SecItems [] []
  | cons (v : PVal F) (n : Option String) (l : List (PVal F)) (ns : List (Option String)) :
      SecName v n → SecItems l ns → SecItems (v :: l) (n :: ns)

/-- The secondaries named by the value of `secondary`. -/
inductive SecNames : PVal F → List (Option String) → Prop
  | dict (d : Dict (PVal F)) : SecNames (.dict d) ((Dict.keys d).map some)
  | list (l : List (PVal F)) (ns : List (Option String)) : SecItems l ns →
      SecNames (.list l) ns
  | one (v : PVal F) (n : Option String) : SecName v n → SecNames v [n]

/-- The names before the first `None`. -/
def upToNone (l : List (Option String)) : List String := (l.takeWhile Option.isSome).filterMap id

/-- The first occurrences in a list. -/
def firsts : List String → List String
  | [] => []
  | a :: l => a :: (firsts l).filter fun b => b ≠ a

/-- The sampler `c` (apart from its secondaries) and the list `sec` are what the entry `e`
called `k` describes. -/
def EntryRead (R : Registry F) (C : Conv F) (k : String) (e : PVal F) (c : CSampler F)
    (sec : List (Option String)) : Prop :=
  ∃ items K obs extra sel, e = .dict items ∧ Dict.get? items "type" = some (.str c.cls) ∧
    Dict.get? R.samplers c.cls = some K ∧ Dict.get? items "observed" = some obs ∧
    ExtraNames (Dict.get? items "init variables") extra ∧ Named K k obs extra c ∧
    ParamsRead C (fun n => if n ∈ reserved then none else Dict.get? K.params n) items c.obj ∧
    SelRead R C (fun S n => decide (n ∈ S.own)) (fun f => { f with obs := true })
      (Dict.get? items "selection") sel ∧ c.sel = sel.getD { cls := "UnitySelection" } ∧
    ((Dict.get? items "secondary" = none ∧ sec = []) ∨
      ∃ v, Dict.get? items "secondary" = some v ∧ SecNames v sec)

/-- The samplers of `y` are what the entries `E` describe; `sec k` are the secondaries listed
in entry `k`. -/
structure SamplersRead (R : Registry F) (C : Conv F) (E : Dict (PVal F)) (y : CSynth F)
    (sec : String → List (Option String)) : Prop where
  keys : Dict.keys y.objs = Dict.keys E
  entry : ∀ k e, Dict.get? E k = some e →
    ∃ c, Dict.get? y.objs k = some c ∧ EntryRead R C k e c (sec k)
  /-- listed secondaries exist -/
  known : ∀ k ∈ Dict.keys E, ∀ s ∈ upToNone (sec k), s ∈ Dict.keys E
  /-- secondaries are attached under their names, the last one of a name stays -/
  secs : ∀ k c, Dict.get? y.objs k = some c → ∀ n,
    Dict.get? c.secs n = ((upToNone (sec k)).filter fun s => nameAt y.objs s = n).getLast?
  /-- in the order in which they are listed -/
  order : ∀ k c, Dict.get? y.objs k = some c →
    Dict.keys c.secs = firsts ((upToNone (sec k)).map (nameAt y.objs))
  marked : ∀ k c, Dict.get? y.objs k = some c →
    (c.isSecondary = true ↔ ∃ p ∈ Dict.keys E, k ∈ upToNone (sec p))
  parents : ∀ k c, Dict.get? y.objs k = some c → c.parents = (Dict.keys E).flatMap fun p =>
    ((upToNone (sec p)).filter fun s => s = k).map fun _ => nameAt y.objs p
  /-- the samplers that no entry lists are attached -/
  attached : y.aux = ((Dict.keys E).filter fun k => !derivedAt R y.objs k &&
    decide (∀ p ∈ Dict.keys E, some k ∉ sec p)).map fun k => (nameAt y.objs k, k)
  distinct : (Dict.keys y.aux).Nodup
  /-- the last derived luminosity sampler that no entry lists is the one used -/
  derived : y.derived = ((Dict.keys E).filter fun k => derivedAt R y.objs k &&
    decide (∀ p ∈ Dict.keys E, some k ∉ sec p)).getLast?

/-- The same sampler in every respect; parameters are compared by their values. -/
def OneSampler (c c' : CSampler F) : Prop := EqSampler c c' ∧ c.parents = c'.parents

/-- The same synthesizer, with the samplers in the same order. -/
structure OneSynth (y y' : CSynth F) : Prop where
  seed : y.seed = y'.seed
  spatial : EqDist y.spatial y'.spatial
  lum : Opt EqDist y.lum y'.lum
  fluxSel : Opt EqSel y.fluxSel y'.fluxSel
  distSel : Opt EqSel y.distSel y'.distSel
  spatSel : Opt EqSel y.spatSel y'.spatSel
  keys : Dict.keys y.objs = Dict.keys y'.objs
  objs : ∀ k, Opt OneSampler (Dict.get? y.objs k) (Dict.get? y'.objs k)
  aux : y.aux = y'.aux
  derived : y.derived = y'.derived

/-- The synthesizer `y` is the one `d` describes. -/
structure Describes (R : Registry F) (C : Conv F) (d : Dict (PVal F)) (y : CSynth F) : Prop where
  seed : ∃ v, Dict.get? d "seed" = some v ∧ IsWhole C v y.seed
  spatial : ∃ v K, Dict.get? d "spatial distribution" = some v ∧
    DistSection R C v y.spatial K ∧ K.spatial = true ∧
    (K.cosmo = true → ∃ q, v = .dict q ∧ Dict.get? q "is_rate" = some y.spatial.isRate) ∧
    (K.cosmo = false → y.spatial.isRate = K.rate0)
  lum : (Dict.get? d "luminosity distribution" = none ∧ y.lum = none) ∨
    ∃ v c K, Dict.get? d "luminosity distribution" = some v ∧ y.lum = some c ∧
      DistSection R C v c K ∧ K.luminosity = true ∧ c.isRate = K.rate0
  flux : SelRead R C (fun _ _ => true) (fun f => { f with flux := true })
    (Dict.get? d "flux selection") y.fluxSel
  dist : SelRead R C (fun _ _ => true) (fun f => { f with dist := true })
    (Dict.get? d "distance selection") y.distSel
  spat : SelRead R C (fun _ _ => true) id (Dict.get? d "spatial selection") y.spatSel
  samplers : (Dict.get? d "auxiliary samplers" = none ∧ y.objs = [] ∧ y.aux = [] ∧
      y.derived = none) ∨
    ∃ E sec, Dict.get? d "auxiliary samplers" = some (.dict E) ∧ SamplersRead R C E y sec

end Spec

/-! ### Numbers and parameters -/

theorem float_iff (C : Conv F) (v : PVal F) (x : F) : C.float v = .ok x ↔ IsNumber C v x := by
  constructor
  · intro h
    unfold Conv.float at h
    split at h
    · cases h; exact .num _
    · cases h; exact .int _
    · rename_i b
      cases b
      · cases h; exact .no
      · cases h; exact .yes
    · rename_i s
      cases hs : C.ofStr s with
      | none => rw [hs] at h; cases h
      | some z => rw [hs] at h; cases h; exact .text _ _ hs
    · cases h; exact .single _
    · cases h
  · intro h
    cases h with
    | num => rfl
    | int => rfl
    | yes => rfl
    | no => rfl
    | text s x hs => simp [Conv.float, hs]
    | single => rfl

theorem whole_iff (C : Conv F) (v : PVal F) (i : Int) : C.int v = .ok i ↔ IsWhole C v i := by
  constructor
  · intro h
    unfold Conv.int at h
    split at h
    · cases h; exact .num _
    · cases h; exact .int _
    · rename_i b
      cases b
      · cases h; exact .no
      · cases h; exact .yes
    · rename_i s
      cases hs : C.intOfStr s with
      | none => rw [hs] at h; cases h
      | some z => rw [hs] at h; cases h; exact .text _ _ hs
    · cases h; exact .single _
    · cases h
  · intro h
    cases h with
    | num => rfl
    | int => rfl
    | yes => rfl
    | no => rfl
    | text s x hs => simp [Conv.int, hs]
    | single => rfl

theorem Spec.Proper.nodup {d : Dict (PVal F)} (h : Proper (.dict d)) : (Dict.keys d).Nodup := by
  cases h with
  | dict _ h1 _ => exact h1
  | other _ h => exact (h d rfl).elim

theorem Spec.Proper.value {d : Dict (PVal F)} (h : Proper (.dict d)) {k : String} {v : PVal F}
    (hm : (k, v) ∈ d) : Proper v := by
  cases h with
  | dict _ _ h2 => exact h2 k v hm
  | other _ h => exact (h d rfl).elim

theorem Spec.Proper.get {d : Dict (PVal F)} (h : Proper (.dict d)) {k : String} {v : PVal F}
    (hm : Dict.get? d k = some v) : Proper v := h.value (Dict.mem_of_get? hm)

theorem nodup_setParams (C : Conv F) (decl : String → Option (ParamDecl F)) (ps : Dict (PVal F))
    (o o' : Obj F) (ho : (Dict.keys o.storage).Nodup) (h : setParams C decl o ps = .ok o') :
    (Dict.keys o'.storage).Nodup := by
  induction ps generalizing o with
  | nil => cases h; exact ho
  | cons p ps ih =>
    obtain ⟨k, v⟩ := p
    unfold setParams at h
    cases hk : decl k with
    | none => rw [hk] at h; exact ih o ho h
    | some dc =>
      rw [hk] at h
      obtain ⟨o1, h1, h2⟩ := (except_bind_ok_iff _ _ _).1 h
      obtain ⟨x, _, _, rfl⟩ := (setParam_ok_iff ..).1 h1
      exact ih _ (Dict.nodup_keys_set _ _ _ ho) h2

theorem setParams_sound (C : Conv F) (decl : String → Option (ParamDecl F)) {ps : Dict (PVal F)}
    (hn : (Dict.keys ps).Nodup) {o : Obj F} (h : setParams C decl {} ps = .ok o) :
    ParamsRead C decl ps o := by
  have hok := (setParams_ok_iff C decl {} ps).1 ⟨o, h⟩
  constructor
  · intro k v dc hg hd
    have hm := Dict.mem_of_get? hg
    obtain ⟨x, h1, h2⟩ := hok k v dc hm hd
    obtain ⟨x', h3, h4⟩ := (setParams_get? C decl {} o ps hn h k).1 v dc hm hd
    rw [h1] at h3; cases h3
    exact ⟨x, (float_iff ..).1 h1, h2, h4⟩
  · intro k hk
    refine (setParams_get? C decl {} o ps hn h k).2 ?_
    rcases hk with hk | hk
    · refine .inl fun v hm => ?_
      rw [Dict.get?_of_mem hn hm] at hk; cases hk
    · exact .inr hk
  · exact nodup_setParams C decl ps {} o (by simp [Dict.keys]) h

theorem setParams_complete (C : Conv F) (decl : String → Option (ParamDecl F))
    {ps : Dict (PVal F)} (hn : (Dict.keys ps).Nodup) {o : Obj F} (h : ParamsRead C decl ps o) :
    ∃ o', setParams C decl {} ps = .ok o' := by
  refine (setParams_ok_iff C decl {} ps).2 fun k v dc hm hd => ?_
  obtain ⟨x, h1, h2, _⟩ := h.given k v dc (Dict.get?_of_mem hn hm) hd
  exact ⟨x, (float_iff ..).2 h1, h2⟩

/-! ### Distributions and selections -/

theorem loadDist_sound (R : Registry F) (C : Conv F) {v : PVal F} (hv : Proper v)
    {r : CDist F × DistCls F} (h : loadDist R C v = .ok r) :
    DistSection R C v r.1 r.2 ∧ r.1.isRate = r.2.rate0 := by
  unfold loadDist at h
  obtain ⟨tmp, h1, h⟩ := (except_bind_ok_iff _ _ _).1 h
  cases v with
  | dict d =>
    obtain rfl : d = tmp := by cases h1; rfl
    cases d with
    | nil => cases h
    | cons p rest =>
      obtain ⟨nm, ps⟩ := p
      obtain ⟨q, h2, h⟩ := (except_bind_ok_iff _ _ _).1 h
      cases h2
      obtain ⟨c, hc, h⟩ := (except_bind_ok_iff _ _ _).1 h
      simp only at hc h
      cases hct : c.ctorOk with
      | false => simp [hct, bind, Except.bind] at h
      | true =>
        simp only [hct, Bool.not_true, Bool.false_eq_true, if_false] at h
        obtain ⟨pi, hpi, h⟩ := (except_bind_ok_iff _ _ _).1 h
        obtain ⟨o, ho, h⟩ := (except_bind_ok_iff _ _ _).1 h
        cases h
        cases ps with
        | dict ps =>
          obtain rfl : ps = pi := by cases hpi; rfl
          have hp : Proper (.dict ps) := hv.value (List.mem_cons_self ..)
          exact ⟨⟨ps, rest, rfl, (lookup_ok_iff ..).1 hc, hct, setParams_sound C _ hp.nodup ho⟩, rfl⟩
        | _ => cases hpi
  | _ => cases h1

theorem loadDist_complete (R : Registry F) (C : Conv F) {v : PVal F} (hv : Proper v)
    {c : CDist F} {K : DistCls F} (h : DistSection R C v c K) :
    ∃ r, loadDist R C v = .ok r ∧ r.2 = K := by
  obtain ⟨ps, rest, rfl, h1, h2, h3⟩ := h
  have hp : Proper (.dict ps) := hv.value (List.mem_cons_self ..)
  obtain ⟨o, ho⟩ := setParams_complete C _ hp.nodup h3
  refine ⟨({ cls := c.cls, obj := o, isRate := K.rate0 }, K), ?_, rfl⟩
  simp [loadDist, PVal.items, firstItem, lookup, h1, h2, ho, bind, Except.bind, pure, Except.pure]

theorem loadSel_sound (R : Registry F) (C : Conv F) (own : Bool) (look : SelFlags → SelFlags)
    {v : PVal F} (hv : Proper v) {s : Option (CSel F)} (h : loadSel R C own look v = .ok s) :
    SelRead R C (fun K n => !own || decide (n ∈ K.own)) look (some v) s := by
  cases v with
  | none => cases h; exact .inl ⟨.inr rfl, rfl⟩
  | dict d =>
    unfold loadSel at h
    obtain ⟨tmp, h1, h⟩ := (except_bind_ok_iff _ _ _).1 h
    obtain rfl : d = tmp := by cases h1; rfl
    cases d with
    | nil => cases h
    | cons p rest =>
      obtain ⟨nm, ps⟩ := p
      obtain ⟨q, h2, h⟩ := (except_bind_ok_iff _ _ _).1 h
      cases h2
      obtain ⟨c, hc, h⟩ := (except_bind_ok_iff _ _ _).1 h
      simp only at hc h
      cases hct : c.ctorOk with
      | false => simp [hct, bind, Except.bind] at h
      | true =>
        simp only [hct, Bool.not_true, Bool.false_eq_true, if_false] at h
        obtain ⟨pi, hpi, h⟩ := (except_bind_ok_iff _ _ _).1 h
        obtain ⟨o, ho, h⟩ := (except_bind_ok_iff _ _ _).1 h
        cases h
        have hp : Proper ps := hv.value (List.mem_cons_self ..)
        have key : (ps = .dict pi ∨ ps = .none ∧ pi = []) ∧ (Dict.keys pi).Nodup := by
          cases ps with
          | dict ps => cases hpi; exact ⟨.inl rfl, hp.nodup⟩
          | none => cases hpi; exact ⟨.inr ⟨rfl, rfl⟩, by simp [Dict.keys]⟩
          | _ => cases hpi
        refine .inr ⟨_, _, rfl, rfl, ps, pi, rest, c, rfl, key.1, (lookup_ok_iff ..).1 hc, hct, rfl, ?_⟩
        have e : (fun k => if (!own || decide (k ∈ c.own)) = true then Dict.get? c.params k
            else none) = fun k => if own && !(k ∈ c.own) then none else Dict.get? c.params k := by
          funext k
          cases own <;> simp
        rw [e]
        exact setParams_sound C _ key.2 ho
  | _ =>
    unfold loadSel at h
    obtain ⟨tmp, h1, h⟩ := (except_bind_ok_iff _ _ _).1 h
    cases h1

theorem loadSel_complete (R : Registry F) (C : Conv F) (own : Bool) (look : SelFlags → SelFlags)
    {v : PVal F} (hv : Proper v) {s : Option (CSel F)}
    (h : SelRead R C (fun K n => !own || decide (n ∈ K.own)) look (some v) s) :
    ∃ s', loadSel R C own look v = .ok s' := by
  rcases h with ⟨h | h, _⟩ | ⟨v', s', e, rfl, p, ps, rest, K, rfl, h1, h2, h3, h4, h5⟩
  · cases h
  · cases h; exact ⟨none, rfl⟩
  · cases e
    have hp : Proper p := hv.value (List.mem_cons_self ..)
    have hn : (Dict.keys ps).Nodup ∧ paramItems p = .ok ps := by
      rcases h1 with rfl | ⟨rfl, rfl⟩
      · exact ⟨hp.nodup, rfl⟩
      · exact ⟨by simp [Dict.keys], rfl⟩
    have e : (fun k => if (!own || decide (k ∈ K.own)) = true then Dict.get? K.params k else none) =
        fun k => if own && !(k ∈ K.own) then none else Dict.get? K.params k := by
      funext k
      cases own <;> simp
    rw [e] at h5
    obtain ⟨o, ho⟩ := setParams_complete C _ hn.1 h5
    refine ⟨some { cls := s'.cls, obj := o, flags := look K.flags0 }, ?_⟩
    simp only [loadSel, PVal.items, firstItem, lookup, h2, h3, hn.2, bind, Except.bind,
      pure, Except.pure, Bool.not_true, Bool.false_eq_true, if_false]
    rw [ho]

theorem loadOptSel_sound (R : Registry F) (C : Conv F) (look : SelFlags → SelFlags)
    {d : Dict (PVal F)} (hd : Proper (.dict d)) (key : String) {s : Option (CSel F)}
    (h : loadOptSel R C look d key = .ok s) :
    SelRead R C (fun _ _ => true) look (Dict.get? d key) s := by
  unfold loadOptSel at h
  cases hg : Dict.get? d key with
  | none => rw [hg] at h; cases h; exact .inl ⟨.inl rfl, rfl⟩
  | some v =>
    rw [hg] at h
    exact loadSel_sound R C false look (hd.get hg) h

theorem loadOptSel_complete (R : Registry F) (C : Conv F) (look : SelFlags → SelFlags)
    {d : Dict (PVal F)} (hd : Proper (.dict d)) (key : String) {s : Option (CSel F)}
    (h : SelRead R C (fun _ _ => true) look (Dict.get? d key) s) :
    ∃ s', loadOptSel R C look d key = .ok s' := by
  unfold loadOptSel
  cases hg : Dict.get? d key with
  | none => exact ⟨none, rfl⟩
  | some v =>
    rw [hg] at h
    exact loadSel_complete R C false look (hd.get hg) h

/-- The part of `Describes` before the samplers. -/
def HeadRead (R : Registry F) (C : Conv F) (d : Dict (PVal F)) (y : CSynth F) : Prop :=
  (∃ v, Dict.get? d "seed" = some v ∧ IsWhole C v y.seed) ∧
  (∃ v K, Dict.get? d "spatial distribution" = some v ∧
    DistSection R C v y.spatial K ∧ K.spatial = true ∧
    (K.cosmo = true → ∃ q, v = .dict q ∧ Dict.get? q "is_rate" = some y.spatial.isRate) ∧
    (K.cosmo = false → y.spatial.isRate = K.rate0)) ∧
  ((Dict.get? d "luminosity distribution" = none ∧ y.lum = none) ∨
    ∃ v c K, Dict.get? d "luminosity distribution" = some v ∧ y.lum = some c ∧
      DistSection R C v c K ∧ K.luminosity = true ∧ c.isRate = K.rate0) ∧
  SelRead R C (fun _ _ => true) (fun f => { f with flux := true })
    (Dict.get? d "flux selection") y.fluxSel ∧
  SelRead R C (fun _ _ => true) (fun f => { f with dist := true })
    (Dict.get? d "distance selection") y.distSel ∧
  SelRead R C (fun _ _ => true) id (Dict.get? d "spatial selection") y.spatSel

theorem loadHead_sound (R : Registry F) (C : Conv F) {d : Dict (PVal F)} (hd : Proper (.dict d))
    {y : CSynth F} (h : loadHead R C d = .ok y) :
    HeadRead R C d y ∧ y.objs = [] ∧ y.aux = [] ∧ y.derived = none := by
  unfold loadHead at h
  obtain ⟨⟨seed, sp, lum⟩, h1, h⟩ := (except_bind_ok_iff _ _ _).1 h
  obtain ⟨fs, h2, h⟩ := (except_bind_ok_iff _ _ _).1 h
  obtain ⟨ds, h3, h⟩ := (except_bind_ok_iff _ _ _).1 h
  obtain ⟨ss, h4, h⟩ := (except_bind_ok_iff _ _ _).1 h
  cases h
  unfold loadDists at h1
  obtain ⟨l, l1, h1⟩ := (except_bind_ok_iff _ _ _).1 h1
  obtain ⟨sv, l2, h1⟩ := (except_bind_ok_iff _ _ _).1 h1
  obtain ⟨spr, l3, h1⟩ := (except_bind_ok_iff _ _ _).1 h1
  obtain ⟨spd, l4, h1⟩ := (except_bind_ok_iff _ _ _).1 h1
  obtain ⟨sd, l5, h1⟩ := (except_bind_ok_iff _ _ _).1 h1
  obtain ⟨sd', l6, h1⟩ := (except_bind_ok_iff _ _ _).1 h1
  rw [lookup_ok_iff] at l2 l5
  cases hsp : spr.2.spatial with
  | false => simp [hsp, bind, Except.bind] at h1
  | true =>
    simp only [hsp, Bool.not_true, Bool.false_eq_true, if_false] at h1
    obtain ⟨m1, m2⟩ := loadDist_sound R C (hd.get l2) l3
    -- the rate
    have hrate : DistSection R C sv spd spr.2 ∧
        (spr.2.cosmo = true → ∃ q, sv = .dict q ∧ Dict.get? q "is_rate" = some spd.isRate) ∧
        (spr.2.cosmo = false → spd.isRate = spr.2.rate0) := by
      unfold loadRate at l4
      cases hc : spr.2.cosmo with
      | false =>
        rw [hc] at l4
        cases l4
        exact ⟨m1, fun h => (nomatch h), fun _ => m2⟩
      | true =>
        rw [hc] at l4
        simp only [if_true] at l4
        obtain ⟨q, q1, l4⟩ := (except_bind_ok_iff _ _ _).1 l4
        obtain ⟨rr, q2, l4⟩ := (except_bind_ok_iff _ _ _).1 l4
        cases l4
        rw [lookup_ok_iff] at q2
        refine ⟨m1, fun _ => ⟨q, ?_, q2⟩, fun h => (nomatch h)⟩
        cases sv with
        | dict => cases q1; rfl
        | _ => cases q1
    have hlum : (seed, sp, lum).1 = sd' ∧ (seed, sp, lum).2.1 = spd ∧
        ((Dict.get? d "luminosity distribution" = none ∧ lum = none) ∨
          ∃ v c K, Dict.get? d "luminosity distribution" = some v ∧ lum = some c ∧
          DistSection R C v c K ∧ K.luminosity = true ∧ c.isRate = K.rate0) := by
      unfold loadLum at l1
      cases hg : Dict.get? d "luminosity distribution" with
      | none =>
        rw [hg] at l1
        cases l1
        cases h1
        exact ⟨rfl, rfl, .inl ⟨rfl, rfl⟩⟩
      | some v =>
        rw [hg] at l1
        obtain ⟨r, r1, l1⟩ := (except_bind_ok_iff _ _ _).1 l1
        cases l1
        simp only at h1
        cases hl : r.2.luminosity with
        | false => simp [hl, bind, Except.bind] at h1
        | true =>
          simp only [hl, Bool.not_true, Bool.false_eq_true, if_false] at h1
          cases h1
          obtain ⟨n1, n2⟩ := loadDist_sound R C (hd.get hg) r1
          exact ⟨rfl, rfl, .inr ⟨v, r.1, r.2, rfl, rfl, n1, hl, n2⟩⟩
    obtain ⟨e1, e2, hlum⟩ := hlum
    simp only at e1 e2
    subst e1; subst e2
    exact ⟨⟨⟨sd, l5, (whole_iff ..).1 l6⟩, ⟨sv, spr.2, l2, hrate.1, hsp, hrate.2⟩, hlum,
      loadOptSel_sound R C _ hd _ h2, loadOptSel_sound R C _ hd _ h3,
      loadOptSel_sound R C _ hd _ h4⟩, rfl, rfl, rfl⟩

theorem loadHead_complete (R : Registry F) (C : Conv F) {d : Dict (PVal F)}
    (hd : Proper (.dict d)) {y : CSynth F} (h : HeadRead R C d y) :
    ∃ y', loadHead R C d = .ok y' := by
  obtain ⟨⟨sd, s1, s2⟩, ⟨sv, K, p1, p2, p3, p4, p5⟩, hl, hf, hdi, hs⟩ := h
  obtain ⟨fs, f1⟩ := loadOptSel_complete R C _ hd _ hf
  obtain ⟨ds, f2⟩ := loadOptSel_complete R C _ hd _ hdi
  obtain ⟨ss, f3⟩ := loadOptSel_complete R C _ hd _ hs
  obtain ⟨r, r1, r2⟩ := loadDist_complete R C (hd.get p1) p2
  have hr : ∃ c, loadRate sv r = .ok c := by
    unfold loadRate
    cases hc : r.2.cosmo with
    | false => exact ⟨_, rfl⟩
    | true =>
      obtain ⟨q, rfl, q2⟩ := p4 (by rw [← r2]; exact hc)
      simp [PVal.items, lookup, q2, bind, Except.bind, pure, Except.pure]
  obtain ⟨c, hc⟩ := hr
  have hlum : ∃ l, loadLum R C d = .ok l ∧ ∀ x, l = some x → x.2.luminosity = true := by
    unfold loadLum
    rcases hl with ⟨l1, _⟩ | ⟨v, c, K', l1, _, l2, l3, _⟩
    · rw [l1]; exact ⟨none, rfl, fun x h => (nomatch h)⟩
    · obtain ⟨r', q1, q2⟩ := loadDist_complete R C (hd.get l1) l2
      rw [l1]
      refine ⟨some r', by simp [q1, bind, Except.bind, pure, Except.pure], fun x h => ?_⟩
      cases h; rw [q2]; exact l3
  obtain ⟨l, l1, l2⟩ := hlum
  have hD : ∃ x, loadDists R C d = .ok x := by
    unfold loadDists
    have e1 : lookup d "spatial distribution" = .ok sv := (lookup_ok_iff ..).2 p1
    have e2 : lookup d "seed" = .ok sd := (lookup_ok_iff ..).2 s1
    have e3 := (whole_iff ..).2 s2
    have e4 : r.2.spatial = true := by rw [r2]; exact p3
    cases l with
    | none => simp [l1, e1, e2, e3, r1, hc, e4, bind, Except.bind, pure, Except.pure]
    | some x =>
      simp [l1, e1, e2, e3, r1, hc, e4, l2 x rfl, bind, Except.bind, pure, Except.pure]
  obtain ⟨x, hx⟩ := hD
  unfold loadHead
  simp [hx, f1, f2, f3, bind, Except.bind, pure, Except.pure]

/-! ### Samplers -/

theorem construct_sound (R : Registry F) {cls obj : String} {obs : PVal F} {extra : List String}
    {c : CSampler F} (h : construct R cls obj obs extra = .ok c) :
    ∃ K, Dict.get? R.samplers cls = some K ∧ c.cls = cls ∧ Named K obj obs extra c ∧
      c.sel = { cls := "UnitySelection" } ∧ c.secs = [] ∧ c.isSecondary = false ∧ c.parents = [] := by
  unfold construct at h
  obtain ⟨K, h1, h⟩ := (except_bind_ok_iff _ _ _).1 h
  rw [lookup_ok_iff] at h1
  refine ⟨K, h1, ?_⟩
  split at h
  · rename_i a1
    cases h
    exact ⟨rfl, .both _ a1 rfl rfl rfl, rfl, rfl, rfl, rfl⟩
  · rename_i a1
    split at h
    · rename_i a2
      cases h
      exact ⟨rfl, .noName _ (by simpa using a1) a2 rfl rfl rfl, rfl, rfl, rfl, rfl⟩
    · rename_i a2
      split at h
      · rename_i a3
        cases h
        exact ⟨rfl, .noObserved _ (by simpa using a1) (by simpa using a2) a3 rfl rfl rfl, rfl, rfl,
          rfl, rfl⟩
      · rename_i a3
        split at h
        · rename_i a4
          cases h
          exact ⟨rfl, .neither _ (by simpa using a1) (by simpa using a2) (by simpa using a3) a4
            rfl rfl rfl, rfl, rfl, rfl, rfl⟩
        · cases h

theorem construct_complete (R : Registry F) {obj : String} {obs : PVal F} {extra : List String}
    {c : CSampler F} {K : SamplerCls F} (hK : Dict.get? R.samplers c.cls = some K)
    (h : Named K obj obs extra c) :
    ∃ c', construct R c.cls obj obs extra = .ok c' ∧ c'.name = c.name ∧ c'.cls = c.cls := by
  unfold construct lookup
  rw [hK]
  cases h with
  | both a1 n _ _ =>
    refine ⟨{ cls := c.cls, name := obj, obsName := obj ++ "_obs", observed := obs }, ?_, n.symm, rfl⟩
    simp only [a1, if_true, bind, Except.bind, pure, Except.pure]
  | noName a1 a2 n _ _ =>
    refine ⟨{ cls := c.cls, name := K.name0, obsName := K.name0 ++ "_obs", observed := obs }, ?_,
      n.symm, rfl⟩
    simp only [a1, a2, if_true, Bool.false_eq_true, if_false, bind, Except.bind, pure, Except.pure]
  | noObserved a1 a2 a3 n _ _ =>
    refine ⟨{ cls := c.cls, name := obj, obsName := obj ++ "_obs", observed := K.observed0 }, ?_,
      n.symm, rfl⟩
    simp only [a1, a2, a3, if_true, Bool.false_eq_true, if_false, bind, Except.bind, pure,
      Except.pure]
  | neither a1 a2 a3 a4 n _ _ =>
    refine ⟨{ cls := c.cls, name := obj, obsName := K.name0 ++ "_obs", observed := obs }, ?_,
      n.symm, rfl⟩
    simp only [a1, a2, a3, a4, if_true, Bool.false_eq_true, if_false, bind, Except.bind, pure,
      Except.pure]

theorem secName_iff (v : PVal F) (n : Option String) : secName v = .ok n ↔ SecName v n := by
  constructor
  · intro h
    cases v with
    | none => cases h; exact .nothing
    | str s => cases h; exact .name s
    | _ => cases h
  · intro h
    cases h <;> rfl

theorem secItems_iff (l : List (PVal F)) (ns : List (Option String)) :
    l.mapM secName = .ok ns ↔ SecItems l ns := by
  induction l generalizing ns with
  | nil =>
    constructor
    · intro h; cases h; exact .nil
    · intro h; cases h; rfl
  | cons v l ih =>
    rw [List.mapM_cons]
    constructor
    · intro h
      obtain ⟨n, h1, h⟩ := (except_bind_ok_iff _ _ _).1 h
      obtain ⟨ns', h2, h⟩ := (except_bind_ok_iff _ _ _).1 h
      cases h
      exact .cons _ _ _ _ ((secName_iff ..).1 h1) ((ih _).1 h2)
    · intro h
      cases h with
      | cons _ n _ ns h1 h2 =>
        refine (except_bind_ok_iff _ _ _).2 ⟨n, (secName_iff ..).2 h1, ?_⟩
        exact (except_bind_ok_iff _ _ _).2 ⟨ns, (ih _).2 h2, rfl⟩

theorem secNames_iff (v : PVal F) (ns : List (Option String)) :
    secNames v = .ok ns ↔ SecNames v ns := by
  have one : ∀ v : PVal F, (do let n ← secName v; pure [n]) = Except.ok ns →
      SecNames v ns := by
    intro v h
    obtain ⟨n, h1, h⟩ := (except_bind_ok_iff _ _ _).1 h
    cases h
    exact .one _ _ ((secName_iff ..).1 h1)
  constructor
  · intro h
    cases v with
    | dict d =>
      cases h
      have e : d.map (fun p => some p.1) = (Dict.keys d).map some := by
        simp [Dict.keys, List.map_map, Function.comp_def]
      rw [e]
      exact .dict d
    | list l => exact .list _ _ ((secItems_iff ..).1 h)
    | none => exact one _ h
    | other => exact one _ h
    | bytes => exact one _ h
    | bool => exact one _ h
    | int => exact one _ h
    | num => exact one _ h
    | str => exact one _ h
    | arr => exact one _ h
  · intro h
    cases h with
    | dict d => simp [secNames, Dict.keys, List.map_map, Function.comp_def]
    | list l ns h => exact (secItems_iff ..).2 h
    | one v n h => cases h <;> rfl

theorem extra_iff (v : Option (PVal F)) (l : List String) : initNames v = .ok l ↔ ExtraNames v l := by
  constructor
  · intro h
    cases v with
    | none => cases h; exact .missing
    | some v =>
      cases v with
      | none => cases h; exact .nothing
      | dict d => cases h; exact .dict d
      | _ => cases h
  · intro h
    cases h <;> rfl

theorem get?_leftOver (d : Dict (PVal F)) (hn : (Dict.keys d).Nodup) :
    (Dict.keys (leftOver d)).Nodup ∧
    ∀ k, Dict.get? (leftOver d) k = if k ∈ reserved then none else Dict.get? d k := by
  have key : ∀ (l : List String) (d : Dict (PVal F)), (Dict.keys d).Nodup →
      (Dict.keys (l.foldl Dict.erase d)).Nodup ∧
      ∀ k, Dict.get? (l.foldl Dict.erase d) k = if k ∈ l then none else Dict.get? d k := by
    intro l
    induction l with
    | nil => intro d h; exact ⟨h, fun k => by simp⟩
    | cons x l ih =>
      intro d h
      obtain ⟨i1, i2⟩ := ih _ (nodup_erase d x h)
      refine ⟨i1, fun k => ?_⟩
      rw [List.foldl_cons, i2, get?_erase d h]
      by_cases e1 : k ∈ l <;> by_cases e2 : x = k <;> simp [e1, e2, List.mem_cons, eq_comm]
  exact key reserved d hn

theorem params_leftOver (C : Conv F) (decl : String → Option (ParamDecl F)) {d : Dict (PVal F)}
    (hn : (Dict.keys d).Nodup) (o : Obj F) :
    ParamsRead C decl (leftOver d) o ↔
      ParamsRead C (fun n => if n ∈ reserved then none else decl n) d o := by
  obtain ⟨_, hg⟩ := get?_leftOver d hn
  constructor
  · intro h
    constructor
    · intro k v dc h1 h2
      by_cases e : k ∈ reserved
      · simp [e] at h2
      · rw [if_neg e] at h2
        exact h.given k v dc (by rw [hg, if_neg e]; exact h1) h2
    · intro k hk
      by_cases e : k ∈ reserved
      · exact h.unset k (.inl (by rw [hg, if_pos e]))
      · rw [if_neg e] at hk
        exact h.unset k (by rw [hg, if_neg e]; exact hk)
    · exact h.once
  · intro h
    constructor
    · intro k v dc h1 h2
      rw [hg] at h1
      by_cases e : k ∈ reserved
      · simp [e] at h1
      · rw [if_neg e] at h1
        exact h.given k v dc h1 (by rw [if_neg e]; exact h2)
    · intro k hk
      rw [hg] at hk
      by_cases e : k ∈ reserved
      · exact h.unset k (.inr (by rw [if_pos e]))
      · rw [if_neg e] at hk
        exact h.unset k (by rw [if_neg e]; exact hk)
    · exact h.once

theorem onEntry_dict (R : Registry F) (C : Conv F) (obj : String) (d : Dict (PVal F)) :
    (onEntry R C obj (.dict d)).1 = outcome (loadEntry R C obj d) := by
  simp only [onEntry]
  cases loadEntry R C obj d <;> rfl

theorem onEntry_sound (R : Registry F) (C : Conv F) (k : String) {e : PVal F} (he : Proper e)
    {r : CSampler F × Option (List (Option String))} (h : (onEntry R C k e).1 = .ok r) :
    EntryRead R C k e r.1 (r.2.getD []) ∧ r.1.secs = [] ∧ r.1.isSecondary = false ∧
      r.1.parents = [] := by
  cases e with
  | dict d =>
    rw [onEntry_dict, loadEntry_outcome R C k d he.nodup] at h
    obtain ⟨t, h1, h⟩ := (except_bind_ok_iff _ _ _).1 h
    obtain ⟨obs, h2, h⟩ := (except_bind_ok_iff _ _ _).1 h
    rw [lookup_ok_iff] at h1 h2
    unfold finishEntry at h
    obtain ⟨sec, h3, h⟩ := (except_bind_ok_iff _ _ _).1 h
    obtain ⟨extra, h4, h⟩ := (except_bind_ok_iff _ _ _).1 h
    obtain ⟨cls, h5, h⟩ := (except_bind_ok_iff _ _ _).1 h
    obtain ⟨c, h6, h⟩ := (except_bind_ok_iff _ _ _).1 h
    obtain ⟨o, h7, h⟩ := (except_bind_ok_iff _ _ _).1 h
    obtain ⟨K, k1, k2, k3, k4, k5, k6, k7⟩ := construct_sound R h6
    have ht : t = .str cls := by
      cases t with
      | str s => cases h5; rfl
      | _ => cases h5
    rw [k1] at h7
    simp only at h7
    have hp := (params_leftOver C _ he.nodup o).1
      (setParams_sound C _ (get?_leftOver d he.nodup).1 h7)
    have hsec : (Dict.get? d "secondary" = none ∧ sec.getD [] = []) ∨
        ∃ v, Dict.get? d "secondary" = some v ∧ SecNames v (sec.getD []) := by
      unfold secNamesOpt at h3
      cases hg : Dict.get? d "secondary" with
      | none => rw [hg] at h3; cases h3; exact .inl ⟨rfl, rfl⟩
      | some v =>
        rw [hg] at h3
        obtain ⟨ns, h8, h3⟩ := (except_bind_ok_iff _ _ _).1 h3
        cases h3
        exact .inr ⟨v, rfl, (secNames_iff ..).1 h8⟩
    have done : ∀ (s : Option (CSel F)), SelRead R C (fun S n => decide (n ∈ S.own))
        (fun f => { f with obs := true }) (Dict.get? d "selection") s →
        EntryRead R C k (.dict d) { c with obj := o, sel := s.getD { cls := "UnitySelection" } }
          (sec.getD []) := by
      intro s hs
      refine ⟨d, K, obs, extra, s, rfl, ?_, ?_, h2, (extra_iff ..).1 h4, ?_, hp, hs, rfl, hsec⟩
      · rw [h1, ht]; simp only [k2]
      · simp only [k2]; exact k1
      · cases k3 with
        | both a1 a2 a3 a4 => exact .both _ a1 a2 a3 a4
        | noName a1 a2 a3 a4 a5 => exact .noName _ a1 a2 a3 a4 a5
        | noObserved a1 a2 a3 a4 a5 a6 => exact .noObserved _ a1 a2 a3 a4 a5 a6
        | neither a1 a2 a3 a4 a5 a6 a7 => exact .neither _ a1 a2 a3 a4 a5 a6 a7
    have plain : ({ c with obj := o, sel := { cls := "UnitySelection" } } : CSampler F) =
        { c with obj := o } := by rw [← k4]
    cases hg : Dict.get? d "selection" with
    | none =>
      rw [hg] at h
      cases h
      have := done none (.inl ⟨.inl hg, rfl⟩)
      simp only [Option.getD_none] at this
      rw [plain] at this
      exact ⟨this, k5, k6, k7⟩
    | some v =>
      rw [hg] at h
      obtain ⟨s, h8, h⟩ := (except_bind_ok_iff _ _ _).1 h
      have hs := loadSel_sound R C true _ (he.get hg) h8
      simp only [Bool.not_true, Bool.false_or] at hs
      rw [← hg] at hs
      cases s with
      | none =>
        cases h
        have := done none hs
        simp only [Option.getD_none] at this
        rw [plain] at this
        exact ⟨this, k5, k6, k7⟩
      | some s =>
        cases h
        exact ⟨done (some s) hs, k5, k6, k7⟩
  | _ => cases h

theorem onEntry_complete (R : Registry F) (C : Conv F) (k : String) {e : PVal F} (he : Proper e)
    {c : CSampler F} {sec : List (Option String)} (h : EntryRead R C k e c sec) :
    ∃ r, (onEntry R C k e).1 = .ok r ∧ r.1.name = c.name ∧ r.1.cls = c.cls ∧
      r.2.getD [] = sec := by
  obtain ⟨d, K, obs, extra, sel, rfl, h1, h2, h3, h4, h5, h6, h7, _, h8⟩ := h
  rw [onEntry_dict, loadEntry_outcome R C k d he.nodup]
  obtain ⟨c', k1, k2, k3⟩ := construct_complete R h2 h5
  obtain ⟨o, ho⟩ := setParams_complete C _ (get?_leftOver d he.nodup).1
    ((params_leftOver C _ he.nodup _).2 h6)
  have hsec : ∃ s, secNamesOpt (Dict.get? d "secondary") = .ok s ∧ s.getD [] = sec := by
    unfold secNamesOpt
    rcases h8 with ⟨g, rfl⟩ | ⟨v, g, hv⟩
    · rw [g]; exact ⟨none, rfl, rfl⟩
    · rw [g]
      exact ⟨some sec, (except_bind_ok_iff _ _ _).2 ⟨sec, (secNames_iff ..).2 hv, rfl⟩, rfl⟩
  obtain ⟨s, s1, s2⟩ := hsec
  have main : ∃ r, finishEntry R C k (.str c.cls) obs (Dict.get? d "selection")
      (Dict.get? d "secondary") (Dict.get? d "init variables") (leftOver d) = .ok r ∧
      r.1.name = c.name ∧ r.1.cls = c.cls ∧ r.2.getD [] = sec := by
    unfold finishEntry
    rw [s1, (extra_iff ..).2 h4]
    have e1 : className (PVal.str c.cls : PVal F) = .ok c.cls := rfl
    simp only [bind, Except.bind, e1, k1, h2, ho]
    cases hg : Dict.get? d "selection" with
    | none => exact ⟨_, rfl, k2, k3, s2⟩
    | some v =>
      rw [hg] at h7
      obtain ⟨s', hs'⟩ := loadSel_complete R C true (fun f => { f with obs := true }) (he.get hg)
        (s := sel) (by simp only [Bool.not_true, Bool.false_or]; exact h7)
      simp only [hs']
      cases s' with
      | none => exact ⟨_, rfl, k2, k3, s2⟩
      | some s' => exact ⟨_, rfl, k2, k3, s2⟩
  obtain ⟨r, r1, r2⟩ := main
  refine ⟨r, ?_, r2⟩
  refine (except_bind_ok_iff _ _ _).2 ⟨_, (lookup_ok_iff ..).2 h1, ?_⟩
  exact (except_bind_ok_iff _ _ _).2 ⟨_, (lookup_ok_iff ..).2 h3, r1⟩

/-! ### Linking and attaching -/

theorem active_eq (l : List (Option String)) : active l = upToNone l := by
  induction l with
  | nil => rfl
  | cons x l ih =>
    cases x with
    | none => simp [active, upToNone]
    | some s => simp only [active, ih, upToNone, List.takeWhile_cons, Option.isSome_some, if_true,
        List.filterMap_cons, id_eq]

theorem get?_foldl_set (nm : String → String) (l : List String) (d : Dict String) (n : String) :
    Dict.get? (l.foldl (fun d s => Dict.set d (nm s) s) d) n =
      ((l.filter fun s => nm s = n).getLast?).or (Dict.get? d n) := by
  induction l generalizing d with
  | nil => simp
  | cons s l ih =>
    rw [List.foldl_cons, ih]
    by_cases e : nm s = n
    · subst e
      simp only [List.filter_cons, decide_true, if_true, List.getLast?_cons, Dict.get?_set_self]
      cases (List.filter (fun s' => decide (nm s' = nm s)) l).getLast? <;> simp
    · simp only [List.filter_cons, e, decide_false, Bool.false_eq_true, if_false,
        Dict.get?_set_ne _ _ e]

theorem keys_foldl_set (nm : String → String) (l : List String) (d : Dict String) :
    Dict.keys (l.foldl (fun d s => Dict.set d (nm s) s) d) =
      Dict.keys d ++ (firsts (l.map nm)).filter fun n => n ∉ Dict.keys d := by
  induction l generalizing d with
  | nil => simp [firsts]
  | cons s l ih =>
    rw [List.foldl_cons, ih, Dict.keys_set]
    by_cases e : nm s ∈ Dict.keys d
    · rw [if_pos e]
      simp only [List.map_cons, firsts, List.filter_cons, e, not_true, decide_false,
        Bool.false_eq_true, if_false, List.filter_filter]
      congr 1
      refine List.filter_congr fun n _ => ?_
      by_cases h : n = nm s
      · subst h; simp [e]
      · simp [h]
    · rw [if_neg e]
      simp only [List.map_cons, firsts, List.filter_cons, e, not_false_iff, decide_true,
        if_true, List.filter_filter, List.append_assoc, List.cons_append, List.nil_append]
      congr 2
      refine List.filter_congr fun n _ => ?_
      by_cases h : n = nm s
      · subst h; simp
      · simp [h]

theorem nodup_firsts (l : List String) : (firsts l).Nodup := by
  induction l with
  | nil => exact List.nodup_nil
  | cons a l ih =>
    refine List.nodup_cons.2 ⟨by simp, ih.filter _⟩

/-- The parents a sampler gets. -/
theorem link_parents (objs o : Dict (CSampler F)) (p s : String) (h : link objs p s = .ok o)
    (k : String) (c : CSampler F) (hc : Dict.get? objs k = some c) :
    ∃ c', Dict.get? o k = some c' ∧
      c'.parents = c.parents ++ if s = k then [nameAt objs p] else [] := by
  unfold link at h
  obtain ⟨cp, h1, h⟩ := (except_bind_ok_iff _ _ _).1 h
  obtain ⟨cs, h2, h⟩ := (except_bind_ok_iff _ _ _).1 h
  rw [lookup_ok_iff] at h1 h2
  cases h
  have hnm : nameAt objs p = cp.name := by unfold nameAt; rw [h1]
  rw [hnm, get?_modAt, get?_modAt, hc]
  by_cases e1 : s = k <;> by_cases e2 : p = k
  · simp only [e1, e2, if_pos, Option.map_some]
    exact ⟨_, rfl, rfl⟩
  · simp only [e1, e2, if_pos, if_false, Option.map_some]
    exact ⟨_, rfl, rfl⟩
  · simp only [e1, e2, if_pos, if_false, Option.map_some]
    exact ⟨_, rfl, by simp⟩
  · simp only [e1, e2, if_false]
    exact ⟨_, rfl, by simp⟩

theorem linkAll_parents (p : String) (l : List (Option String)) (objs o : Dict (CSampler F))
    (h : linkAll p l objs = .ok o) (k : String) (c : CSampler F)
    (hc : Dict.get? objs k = some c) :
    ∃ c', Dict.get? o k = some c' ∧ c'.parents = c.parents ++
      ((active l).filter fun s => s = k).map fun _ => nameAt objs p := by
  induction l generalizing objs c with
  | nil => cases h; exact ⟨c, hc, by simp [active]⟩
  | cons x l ih =>
    cases x with
    | none => cases h; exact ⟨c, hc, by simp [active]⟩
    | some s =>
      obtain ⟨o1, h1, h2⟩ := (except_bind_ok_iff _ _ _).1 h
      obtain ⟨c1, g1, g2⟩ := link_parents objs o1 p s h1 k c hc
      obtain ⟨c2, g3, g4⟩ := ih o1 h2 c1 g1
      refine ⟨c2, g3, ?_⟩
      rw [g4, g2, ((link_spec objs p s).2 o1 h1).nameAt]
      by_cases e : s = k <;> simp [active, e]

theorem linkEntries_parents (lists : List (String × List (Option String)))
    (objs o : Dict (CSampler F)) (h : linkEntries lists objs = .ok o) (k : String)
    (c : CSampler F) (hc : Dict.get? objs k = some c) :
    ∃ c', Dict.get? o k = some c' ∧ c'.parents = c.parents ++ lists.flatMap fun q =>
      ((active q.2).filter fun s => s = k).map fun _ => nameAt objs q.1 := by
  induction lists generalizing objs c with
  | nil => cases h; exact ⟨c, hc, by simp⟩
  | cons x lists ih =>
    obtain ⟨p, l⟩ := x
    obtain ⟨o1, h1, h2⟩ := (except_bind_ok_iff _ _ _).1 h
    obtain ⟨c1, g1, g2⟩ := linkAll_parents p l objs o1 h1 k c hc
    obtain ⟨c2, g3, g4⟩ := ih o1 h2 c1 g1
    refine ⟨c2, g3, ?_⟩
    rw [g4, g2, ((linkAll_spec p l objs).2 o1 h1).nameAt]
    simp [List.flatMap_cons]

/-- The secondaries listed for `k` by the loaded entries. -/
def secOf (rs : Dict (CSampler F × Option (List (Option String)))) (k : String) :
    List (Option String) :=
  ((Dict.get? rs k).bind (·.2)).getD []

theorem flatMap_listsOf {β : Type} (rs : Dict (CSampler F × Option (List (Option String))))
    (hn : (Dict.keys rs).Nodup) (f : String → List (Option String) → List β)
    (hf : ∀ k, f k [] = []) :
    (listsOf rs).flatMap (fun q => f q.1 q.2) = (Dict.keys rs).flatMap fun k => f k (secOf rs k) := by
  have h1 : (Dict.keys rs).flatMap (fun k => f k (secOf rs k)) =
      rs.flatMap fun p => f p.1 (p.2.2.getD []) := by
    unfold Dict.keys
    rw [List.flatMap_map]
    have : ∀ p ∈ rs, f p.1 (secOf rs p.1) = f p.1 (p.2.2.getD []) := by
      intro p hp
      have := Dict.get?_of_mem (k := p.1) (v := p.2) hn hp
      unfold secOf
      rw [this]; rfl
    clear hn
    rw [List.flatMap_def, List.flatMap_def, List.map_congr_left this]
  rw [h1]
  clear h1 hn
  unfold listsOf
  induction rs with
  | nil => rfl
  | cons p rs ih =>
    rw [List.filterMap_cons]
    cases hp : p.2.2 with
    | none => simp only [Option.map_none, List.flatMap_cons, hp, Option.getD_none, hf, List.nil_append, ih]
    | some l => simp only [Option.map_some, List.flatMap_cons, hp, Option.getD_some, ih]

theorem mem_secOf (rs : Dict (CSampler F × Option (List (Option String))))
    (hn : (Dict.keys rs).Nodup) (P : String → List (Option String) → Prop)
    (h0 : ∀ k, ¬ P k []) :
    (∃ p l, (p, l) ∈ listsOf rs ∧ P p l) ↔ ∃ p ∈ Dict.keys rs, P p (secOf rs p) := by
  constructor
  · rintro ⟨p, l, hm, hP⟩
    obtain ⟨c, hc⟩ := (mem_listsOf rs p l).1 hm
    refine ⟨p, List.mem_map.2 ⟨_, hc, rfl⟩, ?_⟩
    unfold secOf
    rw [Dict.get?_of_mem hn hc]
    exact hP
  · rintro ⟨p, hp, hP⟩
    obtain ⟨r, hr⟩ := Option.isSome_iff_exists.1 ((Dict.get?_isSome_iff rs p).2 hp)
    unfold secOf at hP
    rw [hr] at hP
    obtain ⟨c, l⟩ := r
    cases l with
    | none => exact (h0 p hP).elim
    | some l => exact ⟨p, l, (mem_listsOf rs p l).2 ⟨c, Dict.mem_of_get? hr⟩, hP⟩

theorem Spec.EntryRead.core {R : Registry F} {C : Conv F} {k : String} {e : PVal F}
    {c c' : CSampler F} {sec : List (Option String)} (h : EntryRead R C k e c sec)
    (hc : sameCore c c') : EntryRead R C k e c' sec := by
  obtain ⟨items, K, obs, extra, sel, h1, h2, h3, h4, h5, h6, h7, h8, h9, h10⟩ := h
  obtain ⟨b1, b2, b3, b4, b5, b6⟩ := hc
  refine ⟨items, K, obs, extra, sel, h1, by rw [b1]; exact h2, by rw [b1]; exact h3, h4, h5, ?_,
    by rw [b5]; exact h7, h8, by rw [b6]; exact h9, h10⟩
  cases h6 with
  | both a1 a2 a3 a4 => exact .both _ a1 (b2.trans a2) (b3.trans a3) (b4.trans a4)
  | noName a1 a2 a3 a4 a5 => exact .noName _ a1 a2 (b2.trans a3) (b3.trans a4) (b4.trans a5)
  | noObserved a1 a2 a3 a4 a5 a6 =>
    exact .noObserved _ a1 a2 a3 (b2.trans a4) (b3.trans a5) (b4.trans a6)
  | neither a1 a2 a3 a4 a5 a6 a7 =>
    exact .neither _ a1 a2 a3 a4 (b2.trans a5) (b3.trans a6) (b4.trans a7)

/-- The samplers that no entry lists. -/
def rootsOf (rs : Dict (CSampler F × Option (List (Option String)))) : List String :=
  (rs.map (·.1)).filter fun k => !(k ∈ ((listsOf rs).flatMap (·.2)).filterMap id)

theorem rootsOf_eq (rs : Dict (CSampler F × Option (List (Option String))))
    (hn : (Dict.keys rs).Nodup) :
    rootsOf rs = (Dict.keys rs).filter fun k =>
      decide (∀ p ∈ Dict.keys rs, some k ∉ secOf rs p) := by
  unfold rootsOf
  refine List.filter_congr fun k _ => ?_
  rw [← decide_not, decide_eq_decide, List.mem_filterMap]
  have := mem_secOf rs hn (fun _ l => some k ∈ l) (by simp)
  constructor
  · intro h p hp hs
    obtain ⟨p', l, h1, h2⟩ := this.2 ⟨p, hp, hs⟩
    exact h ⟨some k, List.mem_flatMap.2 ⟨(p', l), h1, h2⟩, rfl⟩
  · rintro h ⟨x, hx, rfl⟩
    obtain ⟨⟨p', l⟩, h1, h2⟩ := List.mem_flatMap.1 hx
    obtain ⟨p, hp, hs⟩ := this.1 ⟨p', l, h1, h2⟩
    exact h p hp hs

theorem roots_plain (R : Registry F) (rs : Dict (CSampler F × Option (List (Option String))))
    (hn : (Dict.keys rs).Nodup) (hs : ∀ k r, Dict.get? rs k = some r → r.1.isSecondary = false)
    (objs : Dict (CSampler F)) (hl : linkEntries (listsOf rs) (rs.map fun p => (p.1, p.2.1)) = .ok objs) :
    ∀ k ∈ rootsOf rs, ∃ c, Dict.get? objs k = some c ∧
      (R.derived c.cls = false → c.isSecondary = false) := by
  intro k hk
  have hlk := (linkEntries_spec (listsOf rs) (rs.map fun p => (p.1, p.2.1))).2 objs hl
  rw [rootsOf_eq rs hn, List.mem_filter, decide_eq_true_eq] at hk
  obtain ⟨hk1, hk2⟩ := hk
  obtain ⟨r, hr⟩ := Option.isSome_iff_exists.1 ((Dict.get?_isSome_iff rs k).2 hk1)
  obtain ⟨c, g1, g2, g3, g4⟩ := hlk.get k r.1 (by rw [get?_map_fst, hr]; rfl)
  refine ⟨c, g1, fun _ => ?_⟩
  rw [g4, hs k r hr, Bool.false_or, decide_eq_false_iff_not]
  intro hm
  obtain ⟨⟨p, l⟩, hp, hq⟩ := List.mem_flatMap.1 hm
  obtain ⟨p', hp', hs'⟩ := (mem_secOf rs hn (fun _ l => some k ∈ l) (by simp)).1
    ⟨p, l, hp, active_sub l k hq⟩
  exact hk2 p' hp' hs'

theorem lastOr_none (l : List String) : lastOr l none = l.getLast? := by
  unfold lastOr
  cases l.getLast? <;> rfl

theorem attach_sound (R : Registry F) (C : Conv F) {E : Dict (PVal F)} (hE : Proper (.dict E))
    {rs : Dict (CSampler F × Option (List (Option String)))}
    (hrs : (loadEntries R C E).1 = .ok rs) {y0 y : CSynth F} (ha : y0.aux = [])
    (hd : y0.derived = none) (hy : attach R y0 rs = .ok y) :
    SamplersRead R C E y (secOf rs) ∧
      ∃ objs aux der, y = { y0 with objs := objs, aux := aux, derived := der } := by
  obtain ⟨k1, k2⟩ := (loadEntries_iff R C E).2 rs hrs
  have hn : (Dict.keys rs).Nodup := by rw [k1]; exact hE.nodup
  have hload : ∀ k e, Dict.get? E k = some e → ∃ r, Dict.get? rs k = some r ∧
      EntryRead R C k e r.1 (secOf rs k) := by
    intro k e hg
    have hk : k ∈ Dict.keys rs := by
      rw [k1]; exact List.mem_map.2 ⟨_, Dict.mem_of_get? hg, rfl⟩
    obtain ⟨r, hr⟩ := Option.isSome_iff_exists.1 ((Dict.get?_isSome_iff rs k).2 hk)
    obtain ⟨v, hm, hv⟩ := k2 k r (Dict.mem_of_get? hr)
    rw [Dict.get?_of_mem hE.nodup hm] at hg
    cases hg
    refine ⟨r, hr, ?_⟩
    have := (onEntry_sound R C k (hE.value hm) hv).1
    unfold secOf
    rw [hr]
    exact this
  have hfresh : ∀ k r, Dict.get? rs k = some r → r.1.secs = [] ∧ r.1.isSecondary = false ∧
      r.1.parents = [] := by
    intro k r hr
    obtain ⟨v, hm, hv⟩ := k2 k r (Dict.mem_of_get? hr)
    exact (onEntry_sound R C k (hE.value hm) hv).2
  unfold attach at hy
  obtain ⟨objs, hl, hf⟩ := (except_bind_ok_iff _ _ _).1 hy
  change linkEntries (listsOf rs) _ = _ at hl
  change List.foldlM (attachOne R) _ (rootsOf rs) = _ at hf
  have hlk := (linkEntries_spec (listsOf rs) (rs.map fun p => (p.1, p.2.1))).2 objs hl
  have hlok := (linkEntries_spec (listsOf rs) (rs.map fun p => (p.1, p.2.1))).1.1 ⟨objs, hl⟩
  have hpar := linkEntries_parents (listsOf rs) (rs.map fun p => (p.1, p.2.1)) objs hl
  have hplain := roots_plain R rs hn (fun k r h => (hfresh k r h).2.1) objs hl
  have hkeys : Dict.keys objs = Dict.keys E := by rw [hlk.keys, keys_map_fst, k1]
  obtain ⟨f1, f2, f3⟩ := (attach_fold R (rootsOf rs) { y0 with objs := objs } y hplain).1 hf
  simp only [ha, hd, List.nil_append, lastOr_none] at f1 f2 f3
  have hback : ∀ k c, Dict.get? objs k = some c → ∃ r, Dict.get? rs k = some r := by
    intro k c hc
    have hk : k ∈ Dict.keys rs := by
      rw [k1, ← hkeys]; exact List.mem_map.2 ⟨_, Dict.mem_of_get? hc, rfl⟩
    exact Option.isSome_iff_exists.1 ((Dict.get?_isSome_iff rs k).2 hk)
  have hroots : rootsOf rs = (Dict.keys E).filter fun k =>
      decide (∀ p ∈ Dict.keys E, some k ∉ secOf rs p) := by
    rw [rootsOf_eq rs hn, k1]
  refine ⟨?_, _, _, _, f3⟩
  have hobj : y.objs = objs := by rw [f3]
  have hsecs : ∀ k c, Dict.get? objs k = some c → c.secs =
      (upToNone (secOf rs k)).foldl (fun d s => Dict.set d (nameAt objs s) s) [] := by
    intro k c hc
    obtain ⟨r, hr⟩ := hback k c hc
    obtain ⟨c', g1, _, g3, _⟩ := hlk.get k r.1 (by rw [get?_map_fst, hr]; rfl)
    rw [hc] at g1
    cases g1
    rw [g3, (hfresh k r hr).1, hlk.nameAt, ← active_eq]
    obtain ⟨c0, l⟩ := r
    cases l with
    | none =>
      rw [secsAll_not_mem]
      · simp [secOf, hr, active]
      · intro hm
        obtain ⟨⟨k', l⟩, hm', rfl⟩ := List.mem_map.1 hm
        obtain ⟨c1, hc1⟩ := (mem_listsOf rs k' l).1 hm'
        rw [Dict.get?_of_mem hn hc1] at hr
        cases hr
    | some l =>
      rw [secsAll_mem _ _ k l _ (nodup_listsOf rs hn)
        ((mem_listsOf rs k l).2 ⟨c0, Dict.mem_of_get? hr⟩)]
      simp [secOf, hr]
  refine ⟨by rw [hobj]; exact hkeys, ?_, ?_, ?_, ?_, ?_, ?_, ?_, ?_, ?_⟩
  · intro k e hg
    obtain ⟨r, hr, he⟩ := hload k e hg
    obtain ⟨c, g1, g2, _⟩ := hlk.get k r.1 (by rw [get?_map_fst, hr]; rfl)
    exact ⟨c, by rw [hobj]; exact g1, he.core g2⟩
  · intro k hk s hs
    rw [← k1] at hk
    rw [← active_eq] at hs
    obtain ⟨p, l, h1, h2⟩ := (mem_secOf rs hn (fun p l => p = k ∧ s ∈ active l)
      (by simp [active])).2 ⟨k, hk, rfl, hs⟩
    have := (hlok p l h1 s h2.2).2
    rw [keys_map_fst, k1] at this
    exact this
  · intro k c hc n
    rw [hobj] at hc ⊢
    rw [hsecs k c hc, get?_foldl_set]
    simp [Dict.get?]
  · intro k c hc
    rw [hobj] at hc ⊢
    rw [hsecs k c hc, keys_foldl_set]
    simp [Dict.keys]
  · intro k c hc
    rw [hobj] at hc
    obtain ⟨r, hr⟩ := hback k c hc
    obtain ⟨c', g1, _, _, g4⟩ := hlk.get k r.1 (by rw [get?_map_fst, hr]; rfl)
    rw [hc] at g1
    cases g1
    rw [g4, (hfresh k r hr).2.1, Bool.false_or, decide_eq_true_eq, List.mem_flatMap, ← k1]
    have := mem_secOf rs hn (fun _ l => k ∈ active l) (by simp [active])
    simp only [← active_eq]
    rw [← this]
    constructor
    · rintro ⟨⟨p, l⟩, h1, h2⟩; exact ⟨p, l, h1, h2⟩
    · rintro ⟨p, l, h1, h2⟩; exact ⟨(p, l), h1, h2⟩
  · intro k c hc
    rw [hobj] at hc ⊢
    obtain ⟨r, hr⟩ := hback k c hc
    obtain ⟨c', g1, g2⟩ := hpar k r.1 (by rw [get?_map_fst, hr]; rfl)
    rw [hc] at g1
    cases g1
    rw [g2, (hfresh k r hr).2.2, List.nil_append, hlk.nameAt, ← k1]
    simp only [← active_eq]
    exact flatMap_listsOf rs hn (fun p l => ((active l).filter fun s => s = k).map fun _ =>
      nameAt (rs.map fun p => (p.1, p.2.1)) p) (by simp [active])
  · rw [hobj, f3]
    simp only [hroots, List.filter_filter]
  · rw [f3]
    simp only [Dict.keys, List.map_map, Function.comp_def]
    exact f1
  · rw [hobj, f3]
    simp only [hroots, List.filter_filter]

theorem attach_complete (R : Registry F) (C : Conv F) {E : Dict (PVal F)} (hE : Proper (.dict E))
    {y : CSynth F} {sec : String → List (Option String)} (h : SamplersRead R C E y sec)
    (y0 : CSynth F) (ha : y0.aux = []) :
    ∃ rs y', (loadEntries R C E).1 = .ok rs ∧ attach R y0 rs = .ok y' := by
  have hload : ∀ k e, (k, e) ∈ E → ∃ c r, Dict.get? y.objs k = some c ∧
      (onEntry R C k e).1 = .ok r ∧ r.1.name = c.name ∧ r.1.cls = c.cls ∧ r.2.getD [] = sec k := by
    intro k e hm
    obtain ⟨c, h1, h2⟩ := h.entry k e (Dict.get?_of_mem hE.nodup hm)
    obtain ⟨r, h3, h4⟩ := onEntry_complete R C k (hE.value hm) h2
    exact ⟨c, r, h1, h3, h4⟩
  obtain ⟨rs, hrs⟩ := (loadEntries_iff R C E).1.2 (by
    intro k e hm
    obtain ⟨c, r, _, h3, _⟩ := hload k e hm
    exact ⟨r, h3⟩)
  obtain ⟨k1, k2⟩ := (loadEntries_iff R C E).2 rs hrs
  have hn : (Dict.keys rs).Nodup := by rw [k1]; exact hE.nodup
  have hget : ∀ k r, Dict.get? rs k = some r → ∃ c, Dict.get? y.objs k = some c ∧
      r.1.name = c.name ∧ r.1.cls = c.cls ∧ r.2.getD [] = sec k ∧ r.1.isSecondary = false := by
    intro k r hr
    obtain ⟨v, hm, hv⟩ := k2 k r (Dict.mem_of_get? hr)
    obtain ⟨c, r', h1, h3, h4, h5, h6⟩ := hload k v hm
    rw [hv] at h3
    cases h3
    exact ⟨c, h1, h4, h5, h6, (onEntry_sound R C k (hE.value hm) hv).2.2.1⟩
  have hsec : ∀ k ∈ Dict.keys E, secOf rs k = sec k := by
    intro k hk
    rw [← k1] at hk
    obtain ⟨r, hr⟩ := Option.isSome_iff_exists.1 ((Dict.get?_isSome_iff rs k).2 hk)
    obtain ⟨c, _, _, _, h6, _⟩ := hget k r hr
    unfold secOf
    rw [hr]; exact h6
  obtain ⟨objs, hl⟩ := (linkEntries_spec (listsOf rs) (rs.map fun p => (p.1, p.2.1))).1.2 (by
    intro p l hm s hs
    rw [keys_map_fst, k1]
    have hp : p ∈ Dict.keys E := by
      rw [← k1]; exact listsOf_keys_sub rs p (List.mem_map.2 ⟨_, hm, rfl⟩)
    refine ⟨hp, h.known p hp s ?_⟩
    rw [← hsec p hp, ← active_eq]
    obtain ⟨c, hc⟩ := (mem_listsOf rs p l).1 hm
    unfold secOf
    rw [Dict.get?_of_mem hn hc]
    exact hs)
  have hlk := (linkEntries_spec (listsOf rs) (rs.map fun p => (p.1, p.2.1))).2 objs hl
  have hplain := roots_plain R rs hn (fun k r hr => by
    obtain ⟨c, _, _, _, _, h⟩ := hget k r hr; exact h) objs hl
  have hat : ∀ k ∈ Dict.keys E, nameAt objs k = nameAt y.objs k ∧
      derivedAt R objs k = derivedAt R y.objs k := by
    intro k hk
    rw [← k1] at hk
    obtain ⟨r, hr⟩ := Option.isSome_iff_exists.1 ((Dict.get?_isSome_iff rs k).2 hk)
    obtain ⟨c, h1, h4, h5, _, _⟩ := hget k r hr
    obtain ⟨c', g1, g2, _⟩ := hlk.get k r.1 (by rw [get?_map_fst, hr]; rfl)
    unfold nameAt derivedAt
    rw [g1, h1]
    exact ⟨g2.2.1.trans h4, by simp only [g2.1, h5]⟩
  have hroots : rootsOf rs = (Dict.keys E).filter fun k =>
      decide (∀ p ∈ Dict.keys E, some k ∉ sec p) := by
    rw [rootsOf_eq rs hn, k1]
    refine List.filter_congr fun k _ => ?_
    rw [decide_eq_decide]
    exact forall₂_congr fun p hp => by rw [hsec p hp]
  have key : (rootsOf rs).filter (fun k => !derivedAt R objs k) =
      (Dict.keys E).filter fun k => !derivedAt R y.objs k &&
        decide (∀ p ∈ Dict.keys E, some k ∉ sec p) := by
    rw [hroots, List.filter_filter]
    refine List.filter_congr fun k hk => ?_
    rw [(hat k hk).2]
  have hnd := h.distinct
  rw [h.attached] at hnd
  simp only [Dict.keys, List.map_map, Function.comp_def] at hnd
  have hf := (attach_fold R (rootsOf rs) { y0 with objs := objs } { y0 with
      objs := objs
      aux := y0.aux ++ ((rootsOf rs).filter fun k => !derivedAt R objs k).map fun k =>
        (nameAt objs k, k)
      derived := lastOr ((rootsOf rs).filter (derivedAt R objs)) y0.derived } hplain).2 (by
    refine ⟨?_, ?_, rfl⟩
    · simp only [key]
      have e : (List.map (nameAt objs) ((Dict.keys E).filter fun k => !derivedAt R y.objs k &&
          decide (∀ p ∈ Dict.keys E, some k ∉ sec p))) =
          List.map (nameAt y.objs) ((Dict.keys E).filter fun k => !derivedAt R y.objs k &&
          decide (∀ p ∈ Dict.keys E, some k ∉ sec p)) := by
        refine List.map_congr_left fun k hk => ?_
        exact (hat k (List.mem_filter.1 hk).1).1
      rw [e]
      exact hnd
    · intro k _
      simp [ha, Dict.keys])
  have := (except_bind_ok_iff (linkEntries (listsOf rs) (rs.map fun p => (p.1, p.2.1)))
    (fun o => (rootsOf rs).foldlM (attachOne R) { y0 with objs := o }) _).2 ⟨objs, hl, hf⟩
  exact ⟨rs, _, hrs, this⟩

/-! ### The theorems -/

/-- **C63.** What `from_dict` returns is what the dictionary describes. -/
theorem C63_reads (R : Registry F) (C : Conv F) (d e : Dict (PVal F)) (y : CSynth F)
    (hd : Proper (.dict d)) (h : fromDict R C d = .ok y e) : Describes R C d y := by
  rw [fromDict_eq] at h
  unfold fromDictD at h
  cases hh : loadHead R C d with
  | error e => rw [hh] at h; cases h
  | ok y0 =>
    rw [hh] at h
    obtain ⟨⟨q1, q2, q3, q4, q5, q6⟩, o1, o2, o3⟩ := loadHead_sound R C hd hh
    simp only at h
    cases hg : Dict.get? d "auxiliary samplers" with
    | none =>
      rw [hg] at h
      cases h
      exact ⟨q1, q2, q3, q4, q5, q6, .inl ⟨hg, o1, o2, o3⟩⟩
    | some v =>
      rw [hg] at h
      have hv := hd.get hg
      cases v with
      | dict E =>
        simp only [PVal.items] at h
        cases hl : (loadEntries R C E).1 with
        | error e => rw [hl] at h; cases h
        | ok rs =>
          rw [hl] at h
          simp only at h
          cases hat : attach R y0 rs with
          | error e => rw [hat] at h; cases h
          | ok y1 =>
            rw [hat] at h
            cases h
            obtain ⟨hs, objs, aux, der, rfl⟩ := attach_sound R C hv hl o2 o3 hat
            exact ⟨q1, q2, q3, q4, q5, q6, .inr ⟨E, _, hg, hs⟩⟩
      | _ => cases h

/-- **C63.** `from_dict` succeeds exactly for the dictionaries that describe something. -/
theorem C63_succeeds (R : Registry F) (C : Conv F) (d : Dict (PVal F)) (hd : Proper (.dict d)) :
    (∃ y e, fromDict R C d = .ok y e) ↔ ∃ y, Describes R C d y := by
  constructor
  · rintro ⟨y, e, h⟩
    exact ⟨y, C63_reads R C d e y hd h⟩
  · rintro ⟨y, h⟩
    obtain ⟨y0, h0⟩ := loadHead_complete R C hd
      ⟨h.seed, h.spatial, h.lum, h.flux, h.dist, h.spat⟩
    obtain ⟨_, o1, o2, o3⟩ := loadHead_sound R C hd h0
    rw [fromDict_eq]
    unfold fromDictD
    rw [h0]
    simp only
    rcases h.samplers with ⟨hg, _⟩ | ⟨E, sec, hg, hs⟩
    · rw [hg]; exact ⟨_, _, rfl⟩
    · rw [hg]
      obtain ⟨rs, y', h1, h2⟩ := attach_complete R C (hd.get hg) hs y0 o2
      simp only [PVal.items, h1, h2]
      exact ⟨_, _, rfl⟩

theorem Spec.ParamsRead.unique {C : Conv F} {decl : String → Option (ParamDecl F)}
    {ps : Dict (PVal F)} {o o' : Obj F} (h : ParamsRead C decl ps o)
    (h' : ParamsRead C decl ps o') : SameValues o o' := by
  intro k
  cases hg : Dict.get? ps k with
  | none => rw [h.unset k (.inl hg), h'.unset k (.inl hg)]
  | some v =>
    cases hd : decl k with
    | none => rw [h.unset k (.inr hd), h'.unset k (.inr hd)]
    | some dc =>
      obtain ⟨x, h1, _, h2⟩ := h.given k v dc hg hd
      obtain ⟨x', h1', _, h2'⟩ := h'.given k v dc hg hd
      rw [h2, h2']
      rw [← float_iff] at h1 h1'
      rw [h1] at h1'
      cases h1'
      rfl

theorem Spec.DistSection.unique {R : Registry F} {C : Conv F} {v : PVal F} {c c' : CDist F}
    {K K' : DistCls F} (h : DistSection R C v c K) (h' : DistSection R C v c' K') :
    c.cls = c'.cls ∧ K = K' ∧ SameValues c.obj c'.obj := by
  obtain ⟨ps, rest, rfl, h2, _, h4⟩ := h
  obtain ⟨ps', rest', e, h2', _, h4'⟩ := h'
  simp only [PVal.dict.injEq, List.cons.injEq, Prod.mk.injEq] at e
  obtain ⟨⟨e1, rfl⟩, rfl⟩ := e
  rw [e1, h2'] at h2
  cases h2
  exact ⟨e1, rfl, h4.unique h4'⟩

theorem Spec.SelSection.unique {R : Registry F} {C : Conv F} {names : SelCls F → String → Bool}
    {look : SelFlags → SelFlags} {v : PVal F} {s s' : CSel F}
    (h : SelSection R C names look v s) (h' : SelSection R C names look v s') : EqSel s s' := by
  obtain ⟨p, ps, rest, K, rfl, hp, h2, _, h3, h4⟩ := h
  obtain ⟨p', ps', rest', K', e, hp', h2', _, h3', h4'⟩ := h'
  simp only [PVal.dict.injEq, List.cons.injEq, Prod.mk.injEq] at e
  obtain ⟨⟨e1, rfl⟩, rfl⟩ := e
  rw [e1, h2'] at h2
  cases h2
  have : ps = ps' := by
    rcases hp with rfl | ⟨rfl, rfl⟩ <;> rcases hp' with e | ⟨e, rfl⟩ <;> cases e <;> rfl
  subst this
  exact ⟨e1, h3.trans h3'.symm, h4.unique h4'⟩

theorem Spec.SelRead.unique {R : Registry F} {C : Conv F} {names : SelCls F → String → Bool}
    {look : SelFlags → SelFlags} {v : Option (PVal F)} {s s' : Option (CSel F)}
    (h : SelRead R C names look v s) (h' : SelRead R C names look v s') : Opt EqSel s s' := by
  rcases h with ⟨hv, rfl⟩ | ⟨w, t, rfl, rfl, ht⟩
  · rcases h' with ⟨_, rfl⟩ | ⟨w, t, rfl, rfl, p, ps, rest, K, rfl, _⟩
    · trivial
    · rcases hv with e | e <;> cases e
  · rcases h' with ⟨hv, rfl⟩ | ⟨w', t', e, rfl, ht'⟩
    · obtain ⟨p, ps, rest, K, rfl, _⟩ := ht
      rcases hv with e | e <;> cases e
    · cases e
      exact ht.unique ht'

theorem Spec.Named.unique {K : SamplerCls F} {k : String} {obs : PVal F} {extra : List String}
    {c c' : CSampler F} (h : Named K k obs extra c) (h' : Named K k obs extra c') :
    c.name = c'.name ∧ c.obsName = c'.obsName ∧ c.observed = c'.observed := by
  cases h <;> cases h' <;> simp_all

theorem Spec.EntryRead.unique {R : Registry F} {C : Conv F} {k : String} {e : PVal F}
    {c c' : CSampler F} {sec sec' : List (Option String)} (h : EntryRead R C k e c sec)
    (h' : EntryRead R C k e c' sec') :
    c.cls = c'.cls ∧ c.name = c'.name ∧ c.obsName = c'.obsName ∧ c.observed = c'.observed ∧
      SameValues c.obj c'.obj ∧ EqSel c.sel c'.sel ∧ sec = sec' := by
  obtain ⟨items, K, obs, extra, sel, rfl, h2, h3, h4, h5, h6, h7, h8, h9, h10⟩ := h
  obtain ⟨items', K', obs', extra', sel', e, h2', h3', h4', h5', h6', h7', h8', h9', h10'⟩ := h'
  cases e
  have ec : c.cls = c'.cls := by
    rw [h2] at h2'; simpa using h2'
  rw [ec, h3'] at h3
  cases h3
  rw [h4] at h4'
  cases h4'
  rw [← extra_iff] at h5 h5'
  rw [h5] at h5'
  cases h5'
  obtain ⟨n1, n2, n3⟩ := h6.unique h6'
  refine ⟨ec, n1, n2, n3, h7.unique h7', ?_, ?_⟩
  · rw [h9, h9']
    have := h8.unique h8'
    cases sel <;> cases sel'
    · exact .refl _
    · exact this.elim
    · exact this.elim
    · exact this
  · rcases h10 with ⟨g, rfl⟩ | ⟨v, g, hs⟩ <;> rcases h10' with ⟨g', rfl⟩ | ⟨v', g', hs'⟩
    · rfl
    · rw [g] at g'; cases g'
    · rw [g] at g'; cases g'
    · rw [g] at g'
      cases g'
      rw [← secNames_iff] at hs hs'
      rw [hs] at hs'
      cases hs'
      rfl

/-- **C63.** A dictionary describes at most one synthesizer. -/
theorem C63_unique (R : Registry F) (C : Conv F) (d : Dict (PVal F)) (y y' : CSynth F)
    (h : Describes R C d y) (h' : Describes R C d y') : OneSynth y y' := by
  have hsamp : Dict.keys y.objs = Dict.keys y'.objs ∧
      (∀ k, Opt OneSampler (Dict.get? y.objs k) (Dict.get? y'.objs k)) ∧ y.aux = y'.aux ∧
      y.derived = y'.derived := by
    rcases h.samplers with ⟨g, a1, a2, a3⟩ | ⟨E, sec, g, hs⟩ <;>
      rcases h'.samplers with ⟨g', b1, b2, b3⟩ | ⟨E', sec', g', hs'⟩
    · rw [a1, a2, a3, b1, b2, b3]
      exact ⟨rfl, fun _ => trivial, rfl, rfl⟩
    · rw [g] at g'; cases g'
    · rw [g] at g'; cases g'
    · rw [g] at g'
      cases g'
      have hk : Dict.keys y.objs = Dict.keys y'.objs := hs.keys.trans hs'.keys.symm
      have hent : ∀ k ∈ Dict.keys E, ∃ c c', Dict.get? y.objs k = some c ∧
          Dict.get? y'.objs k = some c' ∧ c.cls = c'.cls ∧ c.name = c'.name ∧
          c.obsName = c'.obsName ∧ c.observed = c'.observed ∧
          SameValues c.obj c'.obj ∧ EqSel c.sel c'.sel ∧ sec k = sec' k := by
        intro k hk
        obtain ⟨e, he⟩ := Option.isSome_iff_exists.1 ((Dict.get?_isSome_iff E k).2 hk)
        obtain ⟨c, h1, h2⟩ := hs.entry k e he
        obtain ⟨c', h1', h2'⟩ := hs'.entry k e he
        exact ⟨c, c', h1, h1', h2.unique h2'⟩
      have hnm : ∀ k ∈ Dict.keys E, nameAt y.objs k = nameAt y'.objs k ∧
          derivedAt R y.objs k = derivedAt R y'.objs k ∧ sec k = sec' k := by
        intro k hk
        obtain ⟨c, c', h1, h1', e1, e2, _, _, _, _, e3⟩ := hent k hk
        unfold nameAt derivedAt
        rw [h1, h1']
        exact ⟨e2, by simp only [e1], e3⟩
      have hroot : ∀ k, (decide (∀ p ∈ Dict.keys E, some k ∉ sec p)) =
          decide (∀ p ∈ Dict.keys E, some k ∉ sec' p) := by
        intro k
        rw [decide_eq_decide]
        exact forall₂_congr fun p hp => by rw [(hnm p hp).2.2]
      refine ⟨hk, ?_, ?_, ?_⟩
      · intro k
        by_cases hm : k ∈ Dict.keys E
        · obtain ⟨c, c', h1, h1', e1, e2, e3, e4, e5, e6, e7⟩ := hent k hm
          rw [h1, h1']
          refine ⟨⟨e1, e2, e3, e4, ?_, ?_, e5, e6⟩, ?_⟩
          · have hu : ∀ s ∈ upToNone (sec k), nameAt y.objs s = nameAt y'.objs s :=
              fun s hsm => (hnm s (hs.known k hm s hsm)).1
            have hkeys : Dict.keys c.secs = Dict.keys c'.secs := by
              rw [hs.order k c h1, hs'.order k c' h1', ← e7, List.map_congr_left hu]
            refine dict_ext _ _ hkeys (by rw [hs.order k c h1]; exact nodup_firsts _) fun n _ => ?_
            rw [hs.secs k c h1, hs'.secs k c' h1', ← e7]
            congr 1
            exact List.filter_congr fun s hsm => by rw [hu s hsm]
          · rw [Bool.eq_iff_iff, hs.marked k c h1, hs'.marked k c' h1']
            exact exists_congr fun p => and_congr_right fun hp => by rw [(hnm p hp).2.2]
          · rw [hs.parents k c h1, hs'.parents k c' h1']
            simp only [List.flatMap_def]
            rw [List.map_congr_left fun p hp => ?_]
            rw [(hnm p hp).2.2, (hnm p hp).1]
        · have e1 : Dict.get? y.objs k = none := by
            rw [Dict.get?_eq_none_iff, hs.keys]; exact hm
          have e2 : Dict.get? y'.objs k = none := by
            rw [Dict.get?_eq_none_iff, hs'.keys]; exact hm
          rw [e1, e2]
          trivial
      · rw [hs.attached, hs'.attached]
        have : (Dict.keys E).filter (fun k => !derivedAt R y.objs k &&
            decide (∀ p ∈ Dict.keys E, some k ∉ sec p)) =
            (Dict.keys E).filter (fun k => !derivedAt R y'.objs k &&
            decide (∀ p ∈ Dict.keys E, some k ∉ sec' p)) :=
          List.filter_congr fun k hk => by rw [hroot, (hnm k hk).2.1]
        rw [this]
        exact List.map_congr_left fun k hk => by rw [(hnm k (List.mem_filter.1 hk).1).1]
      · rw [hs.derived, hs'.derived]
        congr 1
        exact List.filter_congr fun k hk => by rw [hroot, (hnm k hk).2.1]
  refine ⟨?_, ?_, ?_, h.flux.unique h'.flux, h.dist.unique h'.dist, h.spat.unique h'.spat,
    hsamp.1, hsamp.2.1, hsamp.2.2.1, hsamp.2.2.2⟩
  · obtain ⟨v, g, hv⟩ := h.seed
    obtain ⟨v', g', hv'⟩ := h'.seed
    rw [g] at g'
    cases g'
    rw [← whole_iff] at hv hv'
    rw [hv] at hv'
    exact Except.ok.inj hv'
  · obtain ⟨v, K, g, hv, _, r1, r2⟩ := h.spatial
    obtain ⟨v', K', g', hv', _, r1', r2'⟩ := h'.spatial
    rw [g] at g'
    cases g'
    obtain ⟨e1, rfl, e2⟩ := hv.unique hv'
    refine ⟨e1, ?_, e2⟩
    cases hc : K.cosmo with
    | false => rw [r2 hc, r2' hc]
    | true =>
      obtain ⟨q, rfl, hq⟩ := r1 hc
      obtain ⟨q', e, hq'⟩ := r1' hc
      cases e
      rw [hq] at hq'
      exact Option.some.inj hq'
  · rcases h.lum with ⟨g, e⟩ | ⟨v, c, K, g, e, hv, _, r⟩ <;>
      rcases h'.lum with ⟨g', e'⟩ | ⟨v', c', K', g', e', hv', _, r'⟩
    · rw [e, e']; trivial
    · rw [g] at g'; cases g'
    · rw [g] at g'; cases g'
    · rw [g] at g'
      cases g'
      rw [e, e']
      obtain ⟨e1, rfl, e2⟩ := hv.unique hv'
      exact ⟨e1, r.trans r'.symm, e2⟩

open ConfigExample

theorem ConfigExample.conf_proper : Proper (.dict (conf sfr)) := by
  have leaf : ∀ v : PVal Int, (∀ d, v ≠ .dict d) → Proper v := fun v h => .other v h
  refine .dict _ (by simp [conf, Dict.keys]) ?_
  intro k v hm
  simp only [conf, List.mem_cons, List.not_mem_nil, or_false, Prod.mk.injEq] at hm
  rcases hm with ⟨rfl, rfl⟩ | ⟨rfl, rfl⟩ | ⟨rfl, rfl⟩
  · exact leaf _ (by simp)
  · refine .dict _ (by decide) ?_
    intro k v hm
    simp only [List.mem_cons, List.not_mem_nil, or_false, Prod.mk.injEq] at hm
    rcases hm with ⟨rfl, rfl⟩ | ⟨rfl, rfl⟩
    · refine .dict _ (by decide) ?_
      intro k v hm
      simp only [List.mem_cons, List.not_mem_nil, or_false, Prod.mk.injEq] at hm
      rcases hm with ⟨rfl, rfl⟩ | ⟨rfl, rfl⟩ <;> exact leaf _ (by simp)
    · exact leaf _ (by simp)
  · refine .dict _ (by decide) ?_
    intro k v hm
    simp only [List.mem_cons, List.not_mem_nil, or_false, Prod.mk.injEq] at hm
    rcases hm with ⟨rfl, rfl⟩ | ⟨rfl, rfl⟩ | ⟨rfl, rfl⟩ <;>
      refine .dict _ (by decide) ?_ <;> intro k v hm <;>
      simp only [List.mem_cons, List.not_mem_nil, or_false, Prod.mk.injEq] at hm
    · rcases hm with ⟨rfl, rfl⟩ | ⟨rfl, rfl⟩ | ⟨rfl, rfl⟩ | ⟨rfl, rfl⟩ | ⟨rfl, rfl⟩ <;>
        exact leaf _ (by simp)
    · rcases hm with ⟨rfl, rfl⟩ | ⟨rfl, rfl⟩ <;> exact leaf _ (by simp)
    · rcases hm with ⟨rfl, rfl⟩ | ⟨rfl, rfl⟩ | ⟨rfl, rfl⟩
      · exact leaf _ (by simp)
      · exact leaf _ (by simp)
      · refine .dict _ (by decide) ?_
        intro k v hm
        simp only [List.mem_cons, List.not_mem_nil, or_false, Prod.mk.injEq] at hm
        obtain ⟨rfl, rfl⟩ := hm
        refine .dict _ (by decide) ?_
        intro k v hm
        simp only [List.mem_cons, List.not_mem_nil, or_false, Prod.mk.injEq] at hm
        obtain ⟨rfl, rfl⟩ := hm
        exact leaf _ (by simp)

/-- A dictionary with two samplers, a secondary and a selection: whatever it describes has
exactly these samplers, and there is such a synthesizer. -/
example : (∃ y, Describes reg' conv (conf sfr) y) ∧
    ∀ y, Describes reg' conv (conf sfr) y → y.seed = 1234 ∧ y.aux = [("x", "x"), ("a", "a")] ∧
      ∃ c, Dict.get? y.objs "s" = some c ∧ c.parents = ["x"] ∧ c.isSecondary = true := by
  obtain ⟨y, e, h, h1, h2, h3⟩ : ∃ y e, fromDict reg' conv (conf sfr) = .ok y e ∧
      y.seed = 1234 ∧ y.aux = [("x", "x"), ("a", "a")] ∧
      ∃ c, Dict.get? y.objs "s" = some c ∧ c.parents = ["x"] ∧ c.isSecondary = true :=
    ⟨_, _, rfl, rfl, rfl, _, rfl, rfl, rfl⟩
  have hy := C63_reads _ _ _ _ _ conf_proper h
  refine ⟨⟨y, hy⟩, fun y' hy' => ?_⟩
  have hu := C63_unique _ _ _ _ _ hy hy'
  refine ⟨hu.seed.symm.trans h1, hu.aux.symm.trans h2, ?_⟩
  obtain ⟨c, hc, hp, hs⟩ := h3
  have := hu.objs "s"
  rw [hc] at this
  cases hg : Dict.get? y'.objs "s" with
  | none => rw [hg] at this; exact this.elim
  | some c' =>
    rw [hg] at this
    exact ⟨c', rfl, this.2.symm.trans hp, this.1.2.2.2.2.2.1.symm.trans hs⟩

/-- A distribution that is not registered: nothing is described, and `from_dict` fails. -/
example : ¬ (∃ y, Describes reg' conv [("seed", .int 1),
      ("spatial distribution", .dict [("Nothing", .dict [])])] y) ∧
    ¬ ∃ y e, fromDict reg' conv [("seed", .int 1),
      ("spatial distribution", .dict [("Nothing", .dict [])])] = .ok y e := by
  constructor
  · rintro ⟨y, h⟩
    obtain ⟨v, K, g, ⟨ps, rest, e, hK, _⟩, _⟩ := h.spatial
    cases g
    simp only [PVal.dict.injEq, List.cons.injEq, Prod.mk.injEq] at e
    rw [← e.1.1] at hK
    cases hK
  · rintro ⟨y, e, h⟩
    cases h

end Popsynth
