import Verif.Props.Config

/-!
# Configurations as dictionaries: examples, counterexamples (C41) and consumption of the
input (C42)
-/

set_option autoImplicit false
set_option linter.unusedSectionVars false

namespace Popsynth

open Spec

/-! ### A registry with some of popsynth's classes -/

namespace ConfigExample

/-- distributions: `SFRDistribution` (cosmological_distribution.py:91-105),
`ConstantSphericalDistribution`, `ParetoDistribution`; selections `LowerBound`,
`HardFluxSelection` (inherits `boundary`), `UnitySelection`; samplers `NormalAuxSampler`,
`ViewingAngleSampler`, and a user's derived luminosity sampler. -/
def reg : Registry Int where
  dists := [
    ("SFRDistribution", { params := [("r0", { vmin := some 0 }), ("a", { vmin := some 0 })]
                          spatial := true, luminosity := false, cosmo := true
                          rate0 := .bool true }),
    ("ConstantSphericalDistribution", { params := [("Lambda", { default := some 1, vmin := some 0 })]
                                        spatial := true, luminosity := false }),
    ("ParetoDistribution", { params := [("Lmin", { default := some 1, vmin := some 0 }), ("alpha", { default := some 2 })]
                             spatial := false, luminosity := true })]
  sels := [
    ("LowerBound", { params := [("boundary", {})], own := ["boundary"] }),
    ("HardFluxSelection", { params := [("boundary", {})], own := [], flags0 := { flux := true } }),
    ("UnitySelection", { params := [], own := [], usesFlags := false })]
  samplers := [
    ("NormalAuxSampler", { params := [("mu", { default := some 0 }), ("tau", { default := some 1, vmin := some 0 })]
                           accepts := fun _ _ l => l.isEmpty }),
    ("ViewingAngleSampler", { params := [("max_angle", { default := some 90, vmin := some 0, vmax := some 180 })]
                              accepts := fun n o l => !n && !o && l.isEmpty
                              name0 := "va", observed0 := .bool false }),
    ("MyLuminosity", { params := [], accepts := fun _ o l => !o && l.isEmpty
                       observed0 := .bool false, derived := true })]

def conv : Conv Int where
  ofInt := id
  ofStr := fun _ => none
  toInt := id
  intOfStr := fun _ => none

/-- Two samplers: `x`, with a lower bound on its observed value, depends on `y`. -/
def synth : CSynth Int where
  seed := 1234
  spatial := { cls := "SFRDistribution", obj := { storage := [("r0", some 3), ("a", none)] }
               isRate := .bool false }
  lum := some { cls := "ParetoDistribution", obj := { storage := [("alpha", some 2), ("Lmin", some 5)] } }
  fluxSel := some { cls := "HardFluxSelection", obj := { storage := [("boundary", some 1)] }
                    flags := { flux := true } }
  objs := [
    ("0", { cls := "NormalAuxSampler", name := "x", obsName := "x_obs", observed := .bool true
            obj := { storage := [("tau", some 2), ("mu", some (-1))] }
            sel := { cls := "LowerBound", obj := { storage := [("boundary", some 7)] }
                     flags := { obs := true } }
            secs := [("y", "1")] }),
    ("1", { cls := "NormalAuxSampler", name := "y", obsName := "y_obs", observed := .bool false
            isSecondary := true, parents := ["x"] })]
  aux := [("x", "0")]

end ConfigExample

open ConfigExample

/-- The classes of the example admit what the example stores. -/
theorem ConfigExample.used {i : String} (h : Used synth i) : i = "0" ∨ i = "1" := by
  induction h with
  | root h =>
    rcases h with ⟨k, hm⟩ | h
    · simp [synth] at hm; exact .inl hm.2
    · cases h
  | @sec i j k c _ h1 h2 ih =>
    rcases ih with rfl | rfl
    · cases h1; simp at h2; exact .inr h2.2
    · cases h1; simp at h2

theorem ConfigExample.config : Config reg (fun i => if i = "0" then 1 else 0) synth where
  spatial := by
    refine ⟨_, rfl, rfl, rfl, by decide, ?_⟩
    intro k v hm
    have : (k, v) ∈ [("r0", (3 : Int))] := hm
    simp at this
    obtain ⟨rfl, rfl⟩ := this
    exact ⟨_, rfl, by simp [Admits]⟩
  rate := by intro h; cases h
  notRate := by decide
  lum := by
    intro c hc
    cases hc
    refine ⟨⟨_, rfl, rfl, rfl, by decide, ?_⟩, ?_⟩
    · intro k v hm
      have : (k, v) ∈ [("alpha", (2 : Int)), ("Lmin", 5)] := hm
      simp at this
      rcases this with ⟨rfl, rfl⟩ | ⟨rfl, rfl⟩ <;> exact ⟨_, rfl, by simp [Admits]⟩
    · intro k hk; cases hk; rfl
  flux := by
    intro s hs
    cases hs
    refine ⟨_, rfl, rfl, ⟨by decide, ?_⟩, fun _ => rfl⟩
    intro k v hm
    have : (k, v) ∈ [("boundary", (1 : Int))] := hm
    simp at this
    obtain ⟨rfl, rfl⟩ := this
    exact ⟨_, rfl, by simp [Admits]⟩
  dist := by intro s hs; cases hs
  spat := by intro s hs; cases hs
  sampler := by
    intro i hi
    rcases ConfigExample.used hi with rfl | rfl
    · refine ⟨_, rfl, _, rfl, .inl ⟨rfl, rfl⟩, ⟨by decide, ?_⟩, by decide,
        ⟨_, rfl, rfl, ⟨by decide, ?_⟩, fun _ => rfl⟩, ?_, by decide⟩
      · intro k v hm
        have : (k, v) ∈ [("tau", (2 : Int)), ("mu", -1)] := hm
        simp at this
        rcases this with ⟨rfl, rfl⟩ | ⟨rfl, rfl⟩ <;> exact ⟨_, rfl, by simp [Admits]⟩
      · intro k v hm
        have : (k, v) ∈ [("boundary", (7 : Int))] := hm
        simp at this
        obtain ⟨rfl, rfl⟩ := this
        exact ⟨_, rfl, by simp [Admits]⟩
      · intro k hk n v hm
        cases hk
        have : (n, v) ∈ [("boundary", (7 : Int))] := hm
        simp at this
        simp [this.1]
    · refine ⟨_, rfl, _, rfl, .inl ⟨rfl, rfl⟩, ⟨by decide, ?_⟩, by decide,
        ⟨_, rfl, rfl, ⟨by decide, ?_⟩, fun h => ?_⟩, ?_, by decide⟩
      · intro k v hm; cases hm
      · intro k v hm; cases hm
      · cases h
      · intro k _ n v hm; cases hm
  names := by
    intro i j c c' hi hj hc hc' e
    rcases ConfigExample.used hi with rfl | rfl <;> rcases ConfigExample.used hj with rfl | rfl
    · rfl
    · cases hc; cases hc'; simp at e
    · cases hc; cases hc'; simp at e
    · rfl
  auxKey := by
    intro k i c hm hc
    simp [synth] at hm
    obtain ⟨rfl, rfl⟩ := hm
    cases hc; rfl
  secKey := by
    intro i c k j c' hi hc hm hc'
    rcases ConfigExample.used hi with rfl | rfl
    · cases hc; simp at hm; obtain ⟨rfl, rfl⟩ := hm; cases hc'; rfl
    · cases hc; simp at hm
  auxNodup := by decide
  root := by
    intro i c k j hi hc hm
    rcases ConfigExample.used hi with rfl | rfl
    · cases hc; simp at hm; obtain ⟨rfl, rfl⟩ := hm
      rintro (⟨k, h⟩ | h)
      · simp [synth] at h
      · cases h
    · cases hc; simp at hm
  attached := by
    intro k i c hm hc
    simp [synth] at hm
    obtain ⟨rfl, rfl⟩ := hm
    cases hc; rfl
  acyclic := by
    intro i c k j hi hc hm
    rcases ConfigExample.used hi with rfl | rfl
    · cases hc; simp at hm; obtain ⟨rfl, rfl⟩ := hm; decide
    · cases hc; simp at hm
  derived := by intro i c h; cases h

/-- The example survives. -/
example : ∃ d y' d', toDict reg 5 synth = .ok d ∧ fromDict reg conv d = .ok y' d' ∧
    SameConfig reg synth y' :=
  C41_roundtrip_partial reg conv _ 5 synth ConfigExample.config (by
    intro i hi
    rcases ConfigExample.used (.root hi) with rfl | rfl <;> decide)

/-! ### C41: what does not survive -/

/-- Writing and reading again. -/
def reload {F : Type} [LE F] [DecidableLE F] (R : Registry F) (C : Conv F) (fuel : Nat)
    (y : CSynth F) : Except Err (CSynth F) :=
  match toDict R fuel y with
  | .error e => .error e
  | .ok d => outcome (fromDict R C d)

/-- A derived luminosity sampler called `lum`, an instance of `MyLuminosity`. -/
def ConfigExample.derivedSynth : CSynth Int :=
  { synth with
    lum := none, aux := []
    objs := [("0", { cls := "MyLuminosity", name := "lum", obsName := "lum_obs"
                     observed := .bool false })]
    derived := some "0" }

/-- **C41 is violated** for derived luminosity samplers: `to_dict` writes the name of the
sampler as its type (population_synth.py:305), so unless the sampler is called like its class
(or has secondaries) `from_dict` raises `KeyError`. -/
theorem C41_violated_derived :
    reload reg conv 5 derivedSynth = .error .key := by
  rfl

/-- A sampler with a `HardFluxSelection`, whose parameter is declared by its base class. -/
def ConfigExample.inheritedSynth : CSynth Int :=
  { synth with
    objs := [("0", { cls := "NormalAuxSampler", name := "x", obsName := "x_obs"
                     observed := .bool true
                     sel := { cls := "HardFluxSelection"
                              obj := { storage := [("boundary", some 7)] }
                              flags := { obs := true, flux := true } } })] }

/-- **C41 is violated** for selections of samplers whose class inherits its parameters:
`from_dict` only sets those in the class's own dictionary (population_synth.py:691), so the
boundary is lost. -/
theorem C41_violated_inherited :
    ∃ c, Dict.get? inheritedSynth.objs "0" = some c ∧
      truthOf c.sel.obj = [("boundary", 7)] ∧
    ∃ y' c', reload reg conv 5 inheritedSynth = .ok y' ∧
      Dict.get? y'.objs "x" = some c' ∧ c'.sel.cls = "HardFluxSelection" ∧
      truthOf c'.sel.obj = [] :=
  ⟨_, rfl, rfl, _, _, rfl, rfl, rfl, rfl⟩

/-- A sampler selected on the luminosity instead of its own value. -/
def ConfigExample.lumSelSynth : CSynth Int :=
  { synth with
    objs := [("0", { cls := "NormalAuxSampler", name := "x", obsName := "x_obs"
                     observed := .bool true
                     sel := { cls := "LowerBound"
                              obj := { storage := [("boundary", some 7)] }
                              flags := { lum := true } } })] }

/-- **C41 is violated** for what a selection looks at: the flags are not written, and
`from_dict` always makes the selector of a sampler look at the observed value
(population_synth.py:695). -/
theorem C41_violated_flags :
    ∃ c, Dict.get? lumSelSynth.objs "0" = some c ∧ c.sel.flags = { lum := true } ∧
    ∃ y' c', reload reg conv 5 lumSelSynth = .ok y' ∧
      Dict.get? y'.objs "x" = some c' ∧ c'.sel.cls = "LowerBound" ∧
      c'.sel.flags = { obs := true } :=
  ⟨_, rfl, rfl, _, _, rfl, rfl, rfl, rfl⟩

/-- Two attached samplers, each with its own secondary called `s`. -/
def ConfigExample.namesakes : CSynth Int :=
  { synth with
    objs := [
      ("0", { cls := "NormalAuxSampler", name := "a", obsName := "a_obs", observed := .bool true
              secs := [("s", "1")] }),
      ("1", { cls := "NormalAuxSampler", name := "s", obsName := "s_obs", observed := .bool true
              obj := { storage := [("mu", some 1)] }, isSecondary := true, parents := ["a"] }),
      ("2", { cls := "NormalAuxSampler", name := "b", obsName := "b_obs", observed := .bool true
              secs := [("s", "3")] }),
      ("3", { cls := "NormalAuxSampler", name := "s", obsName := "s_obs", observed := .bool true
              obj := { storage := [("mu", some 2)] }, isSecondary := true, parents := ["b"] })]
    aux := [("a", "0"), ("b", "2")] }

/-- **C41 is violated** for different secondaries with the same name: the dictionary has one
entry for both, so afterwards both samplers share the one written last. -/
theorem C41_violated_namesakes :
    ∃ y' a b s, reload reg conv 5 namesakes = .ok y' ∧ Dict.get? y'.objs "a" = some a ∧
      Dict.get? y'.objs "b" = some b ∧ a.secs = [("s", "s")] ∧ b.secs = [("s", "s")] ∧
      Dict.get? y'.objs "s" = some s ∧ truthOf s.obj = [("mu", 2)] :=
  ⟨_, _, _, _, rfl, rfl, rfl, rfl, rfl, rfl, rfl⟩

/-- None of these is the configuration it came from. -/
theorem C41_violated : ∀ y ∈ [inheritedSynth, lumSelSynth, namesakes, derivedSynth],
    ¬ ∃ y', reload reg conv 5 y = .ok y' ∧ SameConfig reg y y' := by
  intro y hy
  simp only [List.mem_cons, List.not_mem_nil, or_false] at hy
  rintro ⟨y', h1, h2⟩
  rcases hy with rfl | rfl | rfl | rfl
  · obtain ⟨c, hc, e, y2, c2, g1, g2, _, g4⟩ := C41_violated_inherited
    rw [g1] at h1; cases h1
    obtain ⟨c', i1, i2, _⟩ := h2.sampler "0" c (.root (.inl ⟨"x", by simp [inheritedSynth, synth]⟩)) hc
    cases hc
    rw [show Dict.get? y'.objs "x" = some c' from i1] at g2
    cases g2
    have := i2.2.2.2.2.2.1.2.1
    rw [g4, e] at this
    cases this
  · obtain ⟨c, hc, e, y2, c2, g1, g2, _, g4⟩ := C41_violated_flags
    rw [g1] at h1; cases h1
    obtain ⟨c', i1, i2, _⟩ := h2.sampler "0" c (.root (.inl ⟨"x", by simp [lumSelSynth, synth]⟩)) hc
    cases hc
    rw [show Dict.get? y'.objs "x" = some c' from i1] at g2
    cases g2
    have := i2.2.2.2.2.2.1.2.2 _ rfl rfl
    rw [g4] at this
    cases this
  · obtain ⟨y2, a, b, s, g1, _, _, _, _, g6, g7⟩ := C41_violated_namesakes
    rw [g1] at h1; cases h1
    obtain ⟨c', i1, i2, _⟩ := h2.sampler "1" _
      (.sec (.root (.inl ⟨"a", by simp [namesakes]⟩)) (i := "0") (k := "s") rfl (by simp)) rfl
    rw [show Dict.get? y'.objs "s" = some c' from i1] at g6
    cases g6
    have := i2.2.2.2.2.1
    rw [g7] at this
    cases this
  · rw [C41_violated_derived] at h1
    cases h1

/-! ### C42: consumption of the input -/

variable {F : Type} [LE F] [DecidableLE F]

theorem set_same {α : Type} (d : Dict α) (k : String) (v : α) (h : Dict.get? d k = some v) :
    Dict.set d k v = d := by
  induction d with
  | nil => cases h
  | cons p d ih =>
    obtain ⟨k', v'⟩ := p
    by_cases e : k' = k
    · simp only [Dict.get?, if_pos e, Option.some.injEq] at h
      subst h
      simp [Dict.set, e]
    · simp only [Dict.get?, if_neg e] at h
      simp only [Dict.set, if_neg e, ih h]

/-- **C42** (part): every section other than `auxiliary samplers` is left alone, whether the
call returns or raises. -/
theorem C42_sections (R : Registry F) (C : Conv F) (d : Dict (PVal F)) (k : String)
    (hk : k ≠ "auxiliary samplers") :
    Dict.get? (endState (fromDict R C d)) k = Dict.get? d k ∧
    Dict.keys (endState (fromDict R C d)) = Dict.keys d := by
  rw [fromDict_eq]
  unfold fromDictD
  have key : ∀ v, Dict.get? d "auxiliary samplers" ≠ none →
      Dict.get? (Dict.set d "auxiliary samplers" v) k = Dict.get? d k ∧
      Dict.keys (Dict.set d "auxiliary samplers" v) = Dict.keys d := by
    intro v hv
    refine ⟨Dict.get?_set_ne _ _ (Ne.symm hk), ?_⟩
    rw [Dict.keys_set, if_pos]
    rw [← Dict.get?_isSome_iff]
    cases h : Dict.get? d "auxiliary samplers" with
    | none => exact absurd h hv
    | some v => rfl
  cases loadHead R C d with
  | error e => exact ⟨rfl, rfl⟩
  | ok y =>
    simp only
    cases h : Dict.get? d "auxiliary samplers" with
    | none => exact ⟨rfl, rfl⟩
    | some v =>
      simp only
      cases v.items with
      | error e => exact ⟨rfl, rfl⟩
      | ok entries =>
        simp only
        cases (loadEntries R C entries).1 with
        | error e => exact key _ (by rw [h]; simp)
        | ok rs =>
          simp only
          cases attach R y rs with
          | error e => exact key _ (by rw [h]; simp)
          | ok y' => exact key _ (by rw [h]; simp)

/-- **C42** (partial): a dictionary without auxiliary samplers is left unchanged, whether the
call returns or raises.  The full claim is for every dictionary; with auxiliary samplers it is
false, see `C42_violated`. -/
theorem C42_unchanged_partial (R : Registry F) (C : Conv F) (d : Dict (PVal F))
    (h : ∀ p l, Dict.get? d "auxiliary samplers" ≠ some (.dict (p :: l))) :
    endState (fromDict R C d) = d := by
  rw [fromDict_eq]
  unfold fromDictD
  cases loadHead R C d with
  | error e => rfl
  | ok y =>
    simp only
    cases hv : Dict.get? d "auxiliary samplers" with
    | none => rfl
    | some v =>
      simp only
      cases hi : v.items with
      | error e => rfl
      | ok entries =>
        cases v with
        | dict l =>
          cases hi
          cases entries with
          | cons p l => exact absurd hv (h p l)
          | nil =>
            simp only [loadEntries]
            have := set_same d _ _ hv
            cases attach R y [] with
            | error e => exact this
            | ok y' => exact this
        | _ => cases hi

theorem loadHead_congr (R : Registry F) (C : Conv F) (d d' : Dict (PVal F))
    (h : ∀ k, k ≠ "auxiliary samplers" → Dict.get? d' k = Dict.get? d k) :
    loadHead R C d' = loadHead R C d := by
  unfold loadHead loadDists loadLum loadOptSel lookup
  rw [h "luminosity distribution" (by decide), h "spatial distribution" (by decide),
    h "seed" (by decide), h "flux selection" (by decide), h "distance selection" (by decide),
    h "spatial selection" (by decide)]

theorem get?_erase_self {α : Type} (d : Dict α) (k : String) (hn : (Dict.keys d).Nodup) :
    Dict.get? (Dict.erase d k) k = none := by
  induction d with
  | nil => rfl
  | cons p d ih =>
    obtain ⟨k', v⟩ := p
    simp only [Dict.keys, List.map_cons, List.nodup_cons] at hn
    by_cases e : k' = k
    · simp only [Dict.erase, if_pos e]
      rw [Dict.get?_eq_none_iff]
      rw [← e]; exact hn.1
    · simp only [Dict.erase, if_neg e, Dict.get?]
      exact ih hn.2

theorem keys_erase_sub {α : Type} (d : Dict α) (k k' : String)
    (h : k' ∈ Dict.keys (Dict.erase d k)) : k' ∈ Dict.keys d := by
  induction d with
  | nil => exact h
  | cons p d ih =>
    obtain ⟨a, v⟩ := p
    by_cases e : a = k
    · simp only [Dict.erase, if_pos e] at h
      exact List.mem_cons_of_mem _ h
    · simp only [Dict.erase, if_neg e] at h
      rcases List.mem_cons.1 h with rfl | h
      · exact List.mem_cons_self ..
      · exact List.mem_cons_of_mem _ (ih h)

theorem popKey_keeps (k0 k : String) : Keeps (fun s t : Dict (PVal F) =>
    k0 ∉ Dict.keys s → k0 ∉ Dict.keys t) (popKey k) := by
  intro s hs
  unfold popKey
  cases Dict.get? s k with
  | none => exact hs
  | some x => exact fun h => hs (keys_erase_sub _ _ _ h)

theorem popOpt_keeps (k0 k : String) : Keeps (fun s t : Dict (PVal F) =>
    k0 ∉ Dict.keys s → k0 ∉ Dict.keys t) (popOpt k) := by
  intro s hs
  unfold popOpt
  cases Dict.get? s k with
  | none => exact hs
  | some x => exact fun h => hs (keys_erase_sub _ _ _ h)

/-- After an entry has been read it has no key `type` any more. -/
theorem loadEntry_type (R : Registry F) (C : Conv F) (obj : String) (d : Dict (PVal F))
    (hn : (Dict.keys d).Nodup) :
    "type" ∉ Dict.keys (endState (loadEntry R C obj d)) := by
  unfold loadEntry
  rw [bind_apply]
  cases h : popKey "type" d with
  | error e s =>
    unfold popKey at h
    cases hg : Dict.get? d "type" with
    | none =>
      rw [hg] at h
      cases h
      exact (Dict.get?_eq_none_iff _ _).1 hg
    | some x => rw [hg] at h; cases h
  | ok x s =>
    have hs : "type" ∉ Dict.keys s := by
      unfold popKey at h
      cases hg : Dict.get? d "type" with
      | none => rw [hg] at h; cases h
      | some x =>
        rw [hg] at h
        cases h
        exact (Dict.get?_eq_none_iff _ _).1 (get?_erase_self d "type" hn)
    have hr : ∀ s : Dict (PVal F), "type" ∉ Dict.keys s → "type" ∉ Dict.keys s := fun _ h => h
    have ht : ∀ a b c : Dict (PVal F), ("type" ∉ Dict.keys a → "type" ∉ Dict.keys b) →
        ("type" ∉ Dict.keys b → "type" ∉ Dict.keys c) →
        "type" ∉ Dict.keys a → "type" ∉ Dict.keys c := fun _ _ _ h1 h2 h => h2 (h1 h)
    exact Keeps.bind' ht (popKey_keeps "type" "observed") (fun _ =>
      Keeps.bind' ht (popOpt_keeps "type" "selection") (fun _ =>
      Keeps.bind' ht (popOpt_keeps "type" "secondary") (fun _ =>
      Keeps.bind' ht (popOpt_keeps "type" "init variables") (fun _ =>
      Keeps.bind' ht (Keeps.get' hr) (fun _ => Keeps.liftE' hr _))))) s hs

/-- **C42 is violated** by every dictionary with an auxiliary sampler: after a call that
returned, the entry of the first sampler has lost its `type`, so the dictionary is a different
one and a second call with it raises `KeyError`. -/
theorem C42_violated (R : Registry F) (C : Conv F) (d d' e : Dict (PVal F)) (k : String)
    (rest : Dict (PVal F)) (y : CSynth F)
    (haux : Dict.get? d "auxiliary samplers" = some (.dict ((k, .dict e) :: rest)))
    (hn : (Dict.keys e).Nodup) (h : fromDict R C d = .ok y d') :
    d' ≠ d ∧ outcome (fromDict R C d') = .error .key := by
  have hsec := fun k hk => (C42_sections R C d k hk).1
  rw [h] at hsec
  simp only [endState] at hsec
  have hhead := loadHead_congr R C d d' hsec
  rw [fromDict_eq] at h
  unfold fromDictD at h
  cases hl : loadHead R C d with
  | error e => rw [hl] at h; cases h
  | ok y0 =>
    rw [hl] at h
    simp only [haux, PVal.items] at h
    have hload : ∃ e1 rest1, (loadEntries R C ((k, .dict e) :: rest)).2 = (k, .dict e1) :: rest1 ∧
        "type" ∉ Dict.keys e1 := by
      have ht := loadEntry_type R C k e hn
      simp only [loadEntries, onEntry]
      cases hle : loadEntry R C k e with
      | error er s => rw [hle] at ht; exact ⟨s, rest, rfl, ht⟩
      | ok r s =>
        rw [hle] at ht
        simp only
        cases hre : loadEntries R C rest with
        | mk a b => cases a <;> exact ⟨s, b, rfl, ht⟩
    obtain ⟨e1, rest1, g1, g2⟩ := hload
    have hd' : d' = Dict.set d "auxiliary samplers" (.dict ((k, .dict e1) :: rest1)) := by
      rw [g1] at h
      cases hr : (loadEntries R C ((k, .dict e) :: rest)).1 with
      | error er => rw [hr] at h; cases h
      | ok rs =>
        rw [hr] at h
        simp only at h
        cases ha : attach R y0 rs with
        | error er => rw [ha] at h; cases h
        | ok y' => rw [ha] at h; cases h; rfl
    have hget : Dict.get? d' "auxiliary samplers" = some (.dict ((k, .dict e1) :: rest1)) := by
      rw [hd']; exact Dict.get?_set_self ..
    have hpop : popKey "type" e1 = .error .key e1 := by
      unfold popKey
      rw [(Dict.get?_eq_none_iff _ _).2 g2]
    have hsecond : outcome (fromDict R C d') = .error .key := by
      rw [fromDict_eq]
      simp only [fromDictD, hhead, hl, hget, PVal.items, loadEntries, onEntry]
      have : loadEntry R C k e1 = .error .key e1 := by
        unfold loadEntry; exact bind_of_error hpop
      rw [this]
      rfl
    refine ⟨?_, hsecond⟩
    intro hdd
    rw [hdd] at hsecond
    rw [fromDict_eq] at hsecond
    unfold fromDictD at hsecond
    rw [hl] at hsecond
    simp only [haux, PVal.items] at hsecond
    cases hr : (loadEntries R C ((k, .dict e) :: rest)).1 with
    | error er => rw [hr] at h; cases h
    | ok rs =>
      rw [hr] at h hsecond
      simp only at h hsecond
      cases ha : attach R y0 rs with
      | error er => rw [ha] at h; cases h
      | ok y' => rw [ha] at hsecond; cases hsecond

/-- The dictionary of the example of C41 works once. -/
example : ∃ d y' d', toDict reg 5 synth = .ok d ∧ fromDict reg conv d = .ok y' d' ∧
    outcome (fromDict reg conv d') = .error .key :=
  ⟨_, _, _, rfl, rfl, rfl⟩

end Popsynth
