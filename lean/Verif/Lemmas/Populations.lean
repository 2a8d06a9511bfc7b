import Verif.Model.Populations
import Verif.Lemmas.Param
import Mathlib.Tactic.Set

/-!
# Ready-made populations: specification and lemmas (C55)
-/

set_option autoImplicit false
set_option linter.unusedSectionVars false

namespace Popsynth

variable {F : Type} [∀ n, OfNat F n] [LE F] [DecidableLE F]

namespace Spec

/-- A value given for a parameter, and whether the parameter must not be negative. -/
structure Given (F : Type) where
  param : String
  value : F
  nonneg : Bool

/-- All given values are allowed: the parameters are not fixed, and those that must not be
negative are not. -/
def Allowed (free : FreeFlags) (cls : String) (ps : List (Given F)) : Prop :=
  ∀ p ∈ ps, free cls p.param = true ∧ (p.nonneg = true → (0 : F) ≤ p.value)

/-- A distribution object of a class with exactly the given parameter values: they are what is
read, no other parameter is set, and they are what is written, in this order. -/
structure DistIs (d : DistObj F) (cls : String) (seed : Int) (isRate : Option Bool)
    (ps : List (Given F)) : Prop where
  cls : d.cls = cls
  seed : d.seed = seed
  isRate : d.isRate = isRate
  value : ∀ p ∈ ps, d.read p.param = .ok p.value
  only : ∀ n, d.obj.storage.has n = true → ∃ p ∈ ps, p.param = n
  truth : truthOf d.obj = ps.map fun p => (p.param, p.value)

/-- A constructor builds a synth around a luminosity distribution handed to it. -/
def BuildsAround (free : FreeFlags) (r : Except Err (NewSynth F)) (seed : Int) (cls : String)
    (isRate : Option Bool) (ps : List (Given F)) (lum : Option (DistObj F)) : Prop :=
  (Allowed free cls ps ∧ (∀ l, lum = some l → l.kind = .luminosity) →
    ∃ s, r = .ok s ∧ s.seed = seed ∧ DistIs s.spatial cls seed isRate ps ∧
      s.luminosity = lum) ∧
  (¬ (Allowed free cls ps ∧ (∀ l, lum = some l → l.kind = .luminosity)) → r = .error .runtime)

/-- A constructor builds a synth from values for its two distributions, or raises. -/
def Builds (free : FreeFlags) (r : Except Err (NewSynth F)) (seed : Int) (name : String)
    (cls : String) (isRate : Option Bool) (ps : List (Given F)) (lcls : String)
    (lps : List (Given F)) : Prop :=
  (Allowed free cls ps ∧ Allowed free lcls lps →
    ∃ s l, r = .ok s ∧ s.seed = seed ∧ s.name = name ∧ DistIs s.spatial cls seed isRate ps ∧
      s.luminosity = some l ∧ DistIs l lcls seed none lps ∧
      ∀ p ∈ ps ++ lps, s.params.get? p.param = some (some p.value)) ∧
  (¬ (Allowed free cls ps ∧ Allowed free lcls lps) → r = .error .runtime)

end Spec

open Spec

/-- Assign several parameters. -/
def setAll (free : FreeFlags) (d : DistObj F) : List (Given F) → Except Err (DistObj F)
  | [] => .ok d
  | p :: ps => do
    let d ← d.assign free p.param p.value
    setAll free d ps

/-- The parameters are declared with the bounds of the specification. -/
def Declared (cls : String) (ps : List (Given F)) : Prop :=
  ∀ p ∈ ps, ∃ decl : ParamDecl F, (distDecls (F := F) cls).get? p.param = some decl ∧
    decl.vmin = (if p.nonneg = true then some 0 else none) ∧ decl.vmax = none

theorem declared_nil (cls : String) : Declared (F := F) cls [] := fun p hp => by simp at hp

theorem declared_cons {cls : String} {p : Given F} {ps : List (Given F)}
    (h : ∃ decl : ParamDecl F, (distDecls (F := F) cls).get? p.param = some decl ∧
      decl.vmin = (if p.nonneg = true then some 0 else none) ∧ decl.vmax = none)
    (hs : Declared cls ps) : Declared cls (p :: ps) := by
  intro q hq
  rcases List.mem_cons.1 hq with rfl | hq
  · exact h
  · exact hs q hq

theorem ok_bind' {ε α β : Type} (a : α) (f : α → Except ε β) : (Except.ok a >>= f) = f a := rfl

/-- What is stored for the given values. -/
def storedOf (ps : List (Given F)) : Dict (Option F) := ps.map fun p => (p.param, some p.value)

theorem keys_storedOf (ps : List (Given F)) : (storedOf ps).keys = ps.map (·.param) := by
  unfold storedOf Dict.keys
  simp [Function.comp_def]

theorem inBounds_given {decl : ParamDecl F} {p : Given F}
    (h1 : decl.vmin = (if p.nonneg = true then some 0 else none)) (h2 : decl.vmax = none) :
    InBounds decl (some p.value) ↔ (p.nonneg = true → (0 : F) ≤ p.value) := by
  unfold InBounds
  rw [h1, h2]
  cases p.nonneg <;> simp

theorem setAll_ok (free : FreeFlags) :
    ∀ (ps : List (Given F)) (d : DistObj F), Declared d.cls ps → Allowed free d.cls ps →
      (d.obj.storage.keys ++ ps.map (·.param)).Nodup →
      ∃ d', setAll free d ps = .ok d' ∧ d'.cls = d.cls ∧ d'.kind = d.kind ∧
        d'.name = d.name ∧ d'.seed = d.seed ∧ d'.isRate = d.isRate ∧
        d'.obj.storage = d.obj.storage ++ storedOf ps := by
  intro ps
  induction ps with
  | nil => intro d _ _ _; exact ⟨d, rfl, rfl, rfl, rfl, rfl, rfl, by simp [storedOf]⟩
  | cons p ps ih =>
    intro d hd ha hn
    obtain ⟨decl, hg, hmin, hmax⟩ := hd p (by simp)
    obtain ⟨hf, hb⟩ := ha p (by simp)
    have hset := paramSet_accept decl (free d.cls p.param) p.param (some p.value) d.obj hf
      ((inBounds_given hmin hmax).2 hb)
    have hfresh : p.param ∉ d.obj.storage.keys := by
      intro hm
      rw [List.nodup_append] at hn
      exact hn.2.2 _ hm _ (by simp) rfl
    set o' : Obj F := { touchNorm decl p.param d.obj with
      storage := d.obj.storage.set p.param (some p.value) } with ho'
    have hst : o'.storage = d.obj.storage ++ [(p.param, some p.value)] :=
      Dict.set_append_of_not_mem _ _ _ hfresh
    have hstep : d.assign free p.param p.value = .ok { d with obj := o' } := by
      unfold DistObj.assign
      rw [hg]
      simp only [hset]
    obtain ⟨d', e, h1, h2, h3, h4, h5, h6⟩ := ih { d with obj := o' }
      (fun q hq => hd q (List.mem_cons_of_mem _ hq)) (fun q hq => ha q (List.mem_cons_of_mem _ hq))
      (by
        simp only [hst, Dict.keys, List.map_append, List.map_cons, List.map_nil, List.append_assoc,
          List.cons_append, List.nil_append]
        simpa only [Dict.keys, List.map_cons] using hn)
    refine ⟨d', ?_, h1, h2, h3, h4, h5, ?_⟩
    · unfold setAll
      rw [hstep]
      exact e
    · rw [h6]
      simp only [hst, List.append_assoc]
      rfl

theorem setAll_error (free : FreeFlags) :
    ∀ (ps : List (Given F)) (d : DistObj F), Declared d.cls ps → ¬ Allowed free d.cls ps →
      setAll free d ps = .error .runtime := by
  intro ps
  induction ps with
  | nil => intro d _ h; exact absurd (fun p hp => by simp at hp) h
  | cons p ps ih =>
    intro d hd ha
    obtain ⟨decl, hg, hmin, hmax⟩ := hd p (by simp)
    by_cases hp : free d.cls p.param = true ∧ (p.nonneg = true → (0 : F) ≤ p.value)
    · have hset := paramSet_accept decl (free d.cls p.param) p.param (some p.value) d.obj hp.1
        ((inBounds_given hmin hmax).2 hp.2)
      unfold setAll DistObj.assign
      rw [hg]
      simp only [hset]
      refine ih _ (fun q hq => hd q (List.mem_cons_of_mem _ hq)) fun hall => ha fun q hq => ?_
      rcases List.mem_cons.1 hq with rfl | hq
      · exact hp
      · exact hall q hq
    · obtain ⟨e, he, hset⟩ := paramSet_reject decl (free d.cls p.param) p.param (some p.value) d.obj
        (by rw [inBounds_given hmin hmax]; exact hp)
      have he : e = .runtime := by
        rcases he with he | ⟨_, he⟩
        · exact he
        · cases he
      unfold setAll DistObj.assign
      rw [hg]
      simp only [hset, he]
      rfl

theorem distIs_of_storage {d : DistObj F} {cls : String} {seed : Int} {isRate : Option Bool}
    {ps : List (Given F)} (hc : d.cls = cls) (hs : d.seed = seed) (hr : d.isRate = isRate)
    (hst : d.obj.storage = storedOf ps) (hn : (ps.map (·.param)).Nodup) (hd : Declared cls ps) :
    DistIs d cls seed isRate ps := by
  refine ⟨hc, hs, hr, fun p hp => ?_, fun n hn => ?_, ?_⟩
  · obtain ⟨decl, hg, -, -⟩ := hd p hp
    unfold DistObj.read
    rw [hc, hg]
    have hget : d.obj.storage.get? p.param = some (some p.value) := by
      rw [hst]
      refine Dict.get?_of_mem (by rw [keys_storedOf]; exact hn) ?_
      exact List.mem_map.2 ⟨p, hp, rfl⟩
    simp only [outcome_paramGet, hget]
    rfl
  · rw [hst] at hn
    unfold Dict.has at hn
    have := (Dict.get?_isSome_iff _ _).1 hn
    rw [keys_storedOf] at this
    obtain ⟨p, hp, e⟩ := List.mem_map.1 this
    exact ⟨p, hp, e⟩
  · unfold truthOf
    rw [hst, storedOf, List.filterMap_map]
    exact congrFun (List.filterMap_eq_map (f := fun p : Given F => (p.param, p.value))) ps

theorem copyParams_append :
    ∀ (ps into : Dict (Option F)), (into.keys ++ ps.keys).Nodup → copyParams into ps = into ++ ps := by
  intro ps
  induction ps with
  | nil => intro into _; simp [copyParams]
  | cons p ps ih =>
    intro into hn
    have hfresh : p.1 ∉ into.keys := by
      intro hm
      rw [List.nodup_append] at hn
      exact hn.2.2 _ hm _ (by simp [Dict.keys]) rfl
    have e := ih (into.set p.1 p.2) (by
      rw [Dict.set_append_of_not_mem _ _ _ hfresh]
      simp only [Dict.keys, List.map_append, List.map_cons, List.map_nil, List.append_assoc,
        List.cons_append, List.nil_append]
      simpa only [Dict.keys, List.map_cons] using hn)
    unfold copyParams at e ⊢
    rw [List.foldl_cons, e, Dict.set_append_of_not_mem _ _ _ hfresh]
    simp

/-- Assembling a synth around a luminosity distribution. -/
theorem buildsAround_of (free : FreeFlags) (sp : DistObj F) (ps : List (Given F))
    (lum : Option (DistObj F)) (seed : Int) (hd : Declared sp.cls ps)
    (hn : (ps.map (·.param)).Nodup) (hk : sp.kind = .spatial) (hs : sp.seed = seed)
    (hst : sp.obj.storage = []) :
    BuildsAround free (setAll free sp ps >>= fun d => newSynth d lum seed) seed sp.cls sp.isRate
      ps lum := by
  have hn' : (sp.obj.storage.keys ++ ps.map (·.param)).Nodup := by rw [hst]; exact hn
  refine ⟨fun ⟨ha, hl⟩ => ?_, fun hne => ?_⟩
  · obtain ⟨d, e, h1, h2, h3, h4, h5, h6⟩ := setAll_ok free ps sp hd ha hn'
    rw [hst, List.nil_append] at h6
    rw [e]
    have hD := distIs_of_storage h1 (h4.trans hs) h5 h6 hn hd
    cases lum with
    | none =>
      refine ⟨⟨seed, d.name, d, none, copyParams [] d.obj.storage⟩, ?_, rfl, hD, rfl⟩
      show newSynth d none seed = _
      unfold newSynth
      rw [if_neg (by rw [h2, hk]; simp)]
    | some l =>
      refine ⟨⟨seed, d.name ++ "_" ++ l.name, d, some l,
        copyParams (copyParams [] d.obj.storage) l.obj.storage⟩, ?_, rfl, hD, rfl⟩
      show newSynth d (some l) seed = _
      unfold newSynth
      rw [if_neg (by rw [h2, hk]; simp)]
      simp only
      rw [if_neg (by rw [hl l rfl]; simp)]
  · by_cases ha : Allowed free sp.cls ps
    · obtain ⟨d, e, h1, h2, -⟩ := setAll_ok free ps sp hd ha hn'
      rw [e]
      cases lum with
      | none => exact absurd ⟨ha, by simp⟩ hne
      | some l =>
        have hl : l.kind ≠ .luminosity := fun h => hne ⟨ha, fun l' e => by cases e; exact h⟩
        show newSynth d (some l) seed = _
        unfold newSynth
        rw [if_neg (by rw [h2, hk]; simp)]
        simp only
        rw [if_pos hl]
    · rw [setAll_error free ps sp hd ha]
      rfl

/-- Assembling a synth from two distributions. -/
theorem builds_of (free : FreeFlags) (sp lum : DistObj F) (ps lps : List (Given F)) (seed : Int)
    (hd : Declared sp.cls ps) (hdl : Declared lum.cls lps)
    (hn : (ps.map (·.param) ++ lps.map (·.param)).Nodup)
    (hk : sp.kind = .spatial) (hkl : lum.kind = .luminosity)
    (hs : sp.seed = seed) (hsl : lum.seed = seed)
    (hst : sp.obj.storage = []) (hstl : lum.obj.storage = []) (hr : lum.isRate = none) :
    Builds free (setAll free lum lps >>= fun l => setAll free sp ps >>= fun d =>
      newSynth d (some l) seed) seed (sp.name ++ "_" ++ lum.name) sp.cls sp.isRate ps lum.cls lps := by
  have hn1 := (List.nodup_append.1 hn).1
  have hn2 := (List.nodup_append.1 hn).2.1
  have hn' : (sp.obj.storage.keys ++ ps.map (·.param)).Nodup := by rw [hst]; exact hn1
  have hnl' : (lum.obj.storage.keys ++ lps.map (·.param)).Nodup := by rw [hstl]; exact hn2
  refine ⟨fun ⟨ha, hal⟩ => ?_, fun hne => ?_⟩
  · obtain ⟨d, e, h1, h2, h3, h4, h5, h6⟩ := setAll_ok free ps sp hd ha hn'
    obtain ⟨l, el, l1, l2, l3, l4, l5, l6⟩ := setAll_ok free lps lum hdl hal hnl'
    rw [hst, List.nil_append] at h6
    rw [hstl, List.nil_append] at l6
    rw [el]
    refine ⟨⟨seed, d.name ++ "_" ++ l.name, d, some l,
      copyParams (copyParams [] d.obj.storage) l.obj.storage⟩, l, ?_, rfl, ?_,
      distIs_of_storage h1 (h4.trans hs) h5 h6 hn1 hd, rfl,
      distIs_of_storage l1 (l4.trans hsl) (l5.trans hr) l6 hn2 hdl, ?_⟩
    · show (setAll free sp ps >>= fun d => newSynth d (some l) seed) = _
      rw [e]
      show newSynth d (some l) seed = _
      unfold newSynth
      rw [if_neg (by rw [h2, hk]; simp)]
      simp only
      rw [if_neg (by rw [l2, hkl]; simp)]
    · rw [h3, l3]
    · intro p hp
      have hk1 : (storedOf ps).keys.Nodup := by rw [keys_storedOf]; exact hn1
      have hk2 : ((storedOf ps).keys ++ (storedOf lps).keys).Nodup := by
        rw [keys_storedOf, keys_storedOf]; exact hn
      simp only [h6, l6]
      rw [copyParams_append (storedOf ps) [] hk1, List.nil_append, copyParams_append _ _ hk2]
      refine Dict.get?_of_mem ?_ ?_
      · simpa only [Dict.keys, List.map_append] using hk2
      · rcases List.mem_append.1 hp with h | h
        · exact List.mem_append_left _ (List.mem_map.2 ⟨p, h, rfl⟩)
        · exact List.mem_append_right _ (List.mem_map.2 ⟨p, h, rfl⟩)
  · by_cases hal : Allowed free lum.cls lps
    · obtain ⟨l, el, -⟩ := setAll_ok free lps lum hdl hal hnl'
      have ha : ¬ Allowed free sp.cls ps := fun h => hne ⟨h, hal⟩
      rw [el]
      show (setAll free sp ps >>= fun d => newSynth d (some l) seed) = _
      rw [setAll_error free ps sp hd ha]
      rfl
    · rw [setAll_error free lps lum hdl hal]
      rfl

end Popsynth
