import Verif.Model.ReadyMade
import Verif.Props.Declarations
import Verif.Props.Rebuild
import Verif.Props.Populations

/-!
# Ready-made populations can be written, read and surveyed again (C71)
-/

set_option autoImplicit false
set_option linter.unusedSectionVars false
set_option linter.unusedSimpArgs false

namespace Popsynth

variable {F G : Type} [∀ n, OfNat F n] [LE F] [DecidableLE F]

/-! ### Specification -/

namespace Spec

/-- `d` results from `d0` by assigning parameters. -/
inductive Assigned (free : FreeFlags) (d0 : DistObj F) : DistObj F → Prop
  | refl : Assigned free d0 d0
  | step {d d' : DistObj F} {n : String} {v : F} : Assigned free d0 d → d.assign free n v = .ok d' →
      Assigned free d0 d'

/-- A luminosity distribution the user made. -/
def MadeLum (free : FreeFlags) (l : DistObj F) : Prop :=
  ∃ seed, Assigned free (newBPL seed) l ∨ Assigned free (newLogNormal seed) l ∨
    Assigned free (newLog10Normal seed) l ∨ Assigned free (newPareto seed) l ∨
    Assigned free (newSchechter seed) l

/-- A spatial distribution with parameters assigned. -/
def MadeSpatial (free : FreeFlags) (d : DistObj F) : Prop :=
  ∃ seed b, Assigned free (newConstantSpherical seed) d ∨ Assigned free (newZPowerSpherical seed) d ∨
    Assigned free (newZPowerCosmo seed b) d ∨ Assigned free (newSFR seed b) d ∨
    Assigned free (newSpiralGalaxy seed) d

/-- What calling the constructor of a class of `popsynth/populations` gives. -/
inductive ReadyMade (free : FreeFlags) : Except Err (NewSynth F) → Prop
  | spherical (L r : F) (seed : Int) (lum : Option (DistObj F))
      (h : ∀ l, lum = some l → MadeLum free l) : ReadyMade free (sphericalPopulation free L r seed lum)
  | zpower (L d r : F) (seed : Int) (lum : Option (DistObj F))
      (h : ∀ l, lum = some l → MadeLum free l) :
      ReadyMade free (zpowerSphericalPopulation free L d r seed lum)
  | cosmo (L d r : F) (seed : Int) (lum : Option (DistObj F)) (b : Bool)
      (h : ∀ l, lum = some l → MadeLum free l) :
      ReadyMade free (zpowerCosmoPopulation free L d r seed lum b)
  | sfr (r0 a ri de pe r : F) (seed : Int) (lum : Option (DistObj F)) (b : Bool)
      (h : ∀ l, lum = some l → MadeLum free l) :
      ReadyMade free (sfrPopulation free r0 a ri de pe r seed lum b)
  | mwRadial (rho a b R1 R0 r : F) (seed : Int) (lum : Option (DistObj F))
      (h : ∀ l, lum = some l → MadeLum free l) :
      ReadyMade free (mwRadialPopulation free rho a b R1 R0 r seed lum)
  | bpl1 (L l1 al l2 be l3 r : F) (seed : Int) :
      ReadyMade free (bplHomogeneousSphericalPopulation free L l1 al l2 be l3 r seed)
  | bpl2 (L d l1 al l2 be l3 r : F) (seed : Int) :
      ReadyMade free (bplZPowerSphericalPopulation free L d l1 al l2 be l3 r seed)
  | bpl3 (L d l1 al l2 be l3 r : F) (seed : Int) (b : Bool) :
      ReadyMade free (bplZPowerCosmoPopulation free L d l1 al l2 be l3 r seed b)
  | bpl4 (r0 a ri de pe l1 al l2 be l3 r : F) (seed : Int) (b : Bool) :
      ReadyMade free (bplSFRPopulation free r0 a ri de pe l1 al l2 be l3 r seed b)
  | logNormal1 (L mu tau r : F) (seed : Int) :
      ReadyMade free (logNormalHomogeneousSphericalPopulation free L mu tau r seed)
  | logNormal2 (L d mu tau r : F) (seed : Int) :
      ReadyMade free (logNormalZPowerSphericalPopulation free L d mu tau r seed)
  | logNormal3 (L d mu tau r : F) (seed : Int) (b : Bool) :
      ReadyMade free (logNormalZPowerCosmoPopulation free L d mu tau r seed b)
  | logNormal4 (r0 a ri de pe mu tau r : F) (seed : Int) (b : Bool) :
      ReadyMade free (logNormalSFRPopulation free r0 a ri de pe mu tau r seed b)
  | log10Normal1 (L mu tau r : F) (seed : Int) :
      ReadyMade free (log10NormalHomogeneousSphericalPopulation free L mu tau r seed)
  | log10Normal2 (L d mu tau r : F) (seed : Int) :
      ReadyMade free (log10NormalZPowerSphericalPopulation free L d mu tau r seed)
  | log10Normal3 (L d mu tau r : F) (seed : Int) (b : Bool) :
      ReadyMade free (log10NormalZPowerCosmoPopulation free L d mu tau r seed b)
  | log10Normal4 (r0 a ri de pe mu tau r : F) (seed : Int) (b : Bool) :
      ReadyMade free (log10NormalSFRPopulation free r0 a ri de pe mu tau r seed b)
  | pareto1 (L l al r : F) (seed : Int) :
      ReadyMade free (paretoHomogeneousSphericalPopulation free L l al r seed)
  | pareto2 (L d l al r : F) (seed : Int) :
      ReadyMade free (paretoZPowerSphericalPopulation free L d l al r seed)
  | pareto3 (L d l al r : F) (seed : Int) (b : Bool) :
      ReadyMade free (paretoZPowerCosmoPopulation free L d l al r seed b)
  | pareto4 (r0 a ri de pe l al r : F) (seed : Int) (b : Bool) :
      ReadyMade free (paretoSFRPopulation free r0 a ri de pe l al r seed b)
  | schechter1 (L l al r : F) (seed : Int) :
      ReadyMade free (schechterHomogeneousSphericalPopulation free L l al r seed)
  | schechter2 (L d l al r : F) (seed : Int) :
      ReadyMade free (schechterZPowerSphericalPopulation free L d l al r seed)
  | schechter3 (L d l al r : F) (seed : Int) (b : Bool) :
      ReadyMade free (schechterZPowerCosmoPopulation free L d l al r seed b)
  | schechter4 (r0 a ri de pe l al r : F) (seed : Int) (b : Bool) :
      ReadyMade free (schechterSFRPopulation free r0 a ri de pe l al r seed b)

/-- The names that distribution objects of these classes get if none is given. -/
def defaultNames : List (String × String) :=
  [("ConstantSphericalDistribution", "cons_sphere"), ("ZPowerSphericalDistribution", "zpow_sphere"),
   ("ZPowerCosmoDistribution", "zpow_cosmo"), ("SFRDistribution", "sfr"),
   ("SpiralGalaxyDistribution", "spiral_galaxy"), ("BPLDistribution", "bpl"),
   ("LogNormalDistribution", "lognorm"), ("Log10NormalDistribution", "log10norm"),
   ("ParetoDistribution", "pareto"), ("SchechterDistribution", "schechter")]

end Spec
open Spec

/-! ### What the constructors give -/

/-- If it returns, then with `P`. -/
def Returns {α : Type} (P : α → Prop) (r : Except Err α) : Prop := ∀ s, r = .ok s → P s

theorem returns_assign {α : Type} {P : α → Prop} {free : FreeFlags} {d0 d : DistObj F} {n : String}
    {v : F} {f : DistObj F → Except Err α} (h : Assigned free d0 d)
    (hf : ∀ d', Assigned free d0 d' → Returns P (f d')) :
    Returns P (d.assign free n v >>= f) := by
  intro s hs
  cases e : d.assign free n v with
  | error x => rw [e] at hs; cases hs
  | ok d' => rw [e] at hs; exact hf d' (.step h e) s hs

/-- A synth made of a spatial and possibly a luminosity distribution. -/
def Plain (free : FreeFlags) (s : NewSynth F) : Prop :=
  MadeSpatial free s.spatial ∧ (∀ l, s.luminosity = some l → MadeLum free l) ∧
    s.name = s.spatial.name ++ (s.luminosity.map fun l => "_" ++ l.name).getD ""

theorem returns_newSynth {free : FreeFlags} {sp : DistObj F} {lum : Option (DistObj F)} {seed : Int}
    (hs : MadeSpatial free sp) (hl : ∀ l, lum = some l → MadeLum free l) :
    Returns (Plain free) (newSynth sp lum seed) := by
  intro s h
  unfold newSynth at h
  split at h
  · cases h
  · split at h
    · cases h
      exact ⟨hs, hl, (by simp)⟩
    · split at h
      · cases h
      · cases h
        exact ⟨hs, hl, (by simp [String.append_assoc])⟩

theorem madeSpatial1 {free : FreeFlags} {seed : Int} {d : DistObj F}
    (h : Assigned free (newConstantSpherical seed) d) : MadeSpatial free d := ⟨seed, true, .inl h⟩

theorem madeSpatial2 {free : FreeFlags} {seed : Int} {d : DistObj F}
    (h : Assigned free (newZPowerSpherical seed) d) : MadeSpatial free d := ⟨seed, true, .inr (.inl h)⟩

theorem madeSpatial3 {free : FreeFlags} {seed : Int} {b : Bool} {d : DistObj F}
    (h : Assigned free (newZPowerCosmo seed b) d) : MadeSpatial free d :=
  ⟨seed, b, .inr (.inr (.inl h))⟩

theorem madeSpatial4 {free : FreeFlags} {seed : Int} {b : Bool} {d : DistObj F}
    (h : Assigned free (newSFR seed b) d) : MadeSpatial free d :=
  ⟨seed, b, .inr (.inr (.inr (.inl h)))⟩

theorem madeSpatial5 {free : FreeFlags} {seed : Int} {d : DistObj F}
    (h : Assigned free (newSpiralGalaxy seed) d) : MadeSpatial free d :=
  ⟨seed, true, .inr (.inr (.inr (.inr h)))⟩

theorem madeLum1 {free : FreeFlags} {seed : Int} {d : DistObj F}
    (h : Assigned free (newBPL seed) d) : MadeLum free d := ⟨seed, .inl h⟩

theorem madeLum2 {free : FreeFlags} {seed : Int} {d : DistObj F}
    (h : Assigned free (newLogNormal seed) d) : MadeLum free d := ⟨seed, .inr (.inl h)⟩

theorem madeLum3 {free : FreeFlags} {seed : Int} {d : DistObj F}
    (h : Assigned free (newLog10Normal seed) d) : MadeLum free d := ⟨seed, .inr (.inr (.inl h))⟩

theorem madeLum4 {free : FreeFlags} {seed : Int} {d : DistObj F}
    (h : Assigned free (newPareto seed) d) : MadeLum free d := ⟨seed, .inr (.inr (.inr (.inl h)))⟩

theorem madeLum5 {free : FreeFlags} {seed : Int} {d : DistObj F}
    (h : Assigned free (newSchechter seed) d) : MadeLum free d := ⟨seed, .inr (.inr (.inr (.inr h)))⟩

/-- Follow the assignments of a constructor. -/
local macro "follow" : tactic =>
  `(tactic| repeat first
    | (apply returns_assign; (assumption); intro _ _)
    | refine returns_assign .refl fun _ _ => ?_)

local macro "spatial" : tactic =>
  `(tactic| first
    | (apply madeSpatial1; assumption) | (apply madeSpatial2; assumption) | (apply madeSpatial3; assumption)
    | (apply madeSpatial4; assumption) | (apply madeSpatial5; assumption))

local macro "luminosity" : tactic =>
  `(tactic| (rintro l hl; cases hl; first
    | (apply madeLum1; assumption) | (apply madeLum2; assumption) | (apply madeLum3; assumption) | (apply madeLum4; assumption)
    | (apply madeLum5; assumption)))

/-- Constructors that make both distributions. -/
local macro "build" : tactic =>
  `(tactic| (follow; refine returns_newSynth ?_ ?_; spatial; luminosity))

theorem returns_spherical {free : FreeFlags} {L r : F} {seed : Int} {lum : Option (DistObj F)}
    (h : ∀ l, lum = some l → MadeLum free l) :
    Returns (Plain free) (sphericalPopulation free L r seed lum) := by
  unfold sphericalPopulation
  follow
  exact returns_newSynth (by spatial) h

theorem returns_zpower {free : FreeFlags} {L d r : F} {seed : Int} {lum : Option (DistObj F)}
    (h : ∀ l, lum = some l → MadeLum free l) :
    Returns (Plain free) (zpowerSphericalPopulation free L d r seed lum) := by
  unfold zpowerSphericalPopulation
  follow
  exact returns_newSynth (by spatial) h

theorem returns_cosmo {free : FreeFlags} {L d r : F} {seed : Int} {lum : Option (DistObj F)}
    {b : Bool} (h : ∀ l, lum = some l → MadeLum free l) :
    Returns (Plain free) (zpowerCosmoPopulation free L d r seed lum b) := by
  unfold zpowerCosmoPopulation
  follow
  exact returns_newSynth (by spatial) h

theorem returns_sfr {free : FreeFlags} {r0 a ri de pe r : F} {seed : Int}
    {lum : Option (DistObj F)} {b : Bool} (h : ∀ l, lum = some l → MadeLum free l) :
    Returns (Plain free) (sfrPopulation free r0 a ri de pe r seed lum b) := by
  unfold sfrPopulation
  follow
  exact returns_newSynth (by spatial) h

theorem returns_mwRadial {free : FreeFlags} {rho a b R1 R0 r : F} {seed : Int}
    {lum : Option (DistObj F)} (h : ∀ l, lum = some l → MadeLum free l) :
    Returns (Plain free) (mwRadialPopulation free rho a b R1 R0 r seed lum) := by
  unfold mwRadialPopulation
  follow
  exact returns_newSynth (by spatial) h

theorem readyMade_plain {free : FreeFlags} {r : Except Err (NewSynth F)} (h : ReadyMade free r) :
    Returns (Plain free) r := by
  cases h with
  | spherical _ _ _ _ h => exact returns_spherical h
  | zpower _ _ _ _ _ h => exact returns_zpower h
  | cosmo _ _ _ _ _ _ h => exact returns_cosmo h
  | sfr _ _ _ _ _ _ _ _ _ h => exact returns_sfr h
  | mwRadial _ _ _ _ _ _ _ _ h => exact returns_mwRadial h
  | bpl1 => unfold bplHomogeneousSphericalPopulation; build
  | bpl2 => unfold bplZPowerSphericalPopulation; build
  | bpl3 => unfold bplZPowerCosmoPopulation; build
  | bpl4 => unfold bplSFRPopulation; build
  | logNormal1 =>
    unfold logNormalHomogeneousSphericalPopulation; build
  | logNormal2 => unfold logNormalZPowerSphericalPopulation; build
  | logNormal3 => unfold logNormalZPowerCosmoPopulation; build
  | logNormal4 => unfold logNormalSFRPopulation; build
  | log10Normal1 =>
    unfold log10NormalHomogeneousSphericalPopulation; build
  | log10Normal2 =>
    unfold log10NormalZPowerSphericalPopulation; build
  | log10Normal3 => unfold log10NormalZPowerCosmoPopulation; build
  | log10Normal4 => unfold log10NormalSFRPopulation; build
  | pareto1 =>
    unfold paretoHomogeneousSphericalPopulation; build
  | pareto2 => unfold paretoZPowerSphericalPopulation; build
  | pareto3 => unfold paretoZPowerCosmoPopulation; build
  | pareto4 => unfold paretoSFRPopulation; build
  | schechter1 =>
    unfold schechterHomogeneousSphericalPopulation; build
  | schechter2 => unfold schechterZPowerSphericalPopulation; build
  | schechter3 => unfold schechterZPowerCosmoPopulation; build
  | schechter4 => unfold schechterSFRPopulation; build

/-! ### They are built from registered classes -/

theorem distDecls_free (cls n : String) (d : ParamDecl F)
    (h : Dict.get? (distDecls (F := F) cls) n = some d) : d.free = true := by
  have key : ∀ p ∈ distDecls (F := F) cls, p.2.free = true := by
    unfold distDecls
    split <;> simp
  exact key _ (Dict.mem_of_get? h)

theorem assigned_made {free : FreeFlags} {d0 d : DistObj F} (h : Assigned free d0 d)
    (decls : Dict (ParamDecl F))
    (hd : ∀ n, Dict.get? (distDecls (F := F) d0.cls) n = Dict.get? decls n) (h0 : d0.obj = {}) :
    d.cls = d0.cls ∧ d.name = d0.name ∧ d.isRate = d0.isRate ∧ Made decls d.obj := by
  induction h with
  | refl => exact ⟨rfl, rfl, rfl, h0 ▸ .new⟩
  | @step d d' n v _ ha ih =>
    obtain ⟨h1, h2, h3, h4⟩ := ih
    unfold DistObj.assign at ha
    split at ha
    · cases ha; exact ⟨h1, h2, h3, h4⟩
    · rename_i decl hdecl
      have hf := distDecls_free _ _ _ hdecl
      split at ha
      · rename_i o ho
        cases ha
        refine ⟨h1, h2, h3, ?_⟩
        have hfree : free d.cls n = true := by
          cases e : free d.cls n with
          | true => rfl
          | false =>
            obtain ⟨x, _, hx⟩ := paramSet_reject decl (free d.cls n) n (some v) d.obj
              (by rw [e]; simp)
            rw [ho] at hx
            cases hx
        have := Made.assign (some v) h4 (show Dict.get? decls n = some decl by
          rw [← hd, ← h1]; exact hdecl)
        rw [hf, ← hfree, ho] at this
        exact this
      · cases ha

theorem assigned_cls {free : FreeFlags} {d0 d : DistObj F} (h : Assigned free d0 d)
    (half : F) (h0 : d0.obj = {}) (hne : distDecls (F := F) d0.cls ≠ []) :
    d.cls = d0.cls ∧ d.name = d0.name ∧ d.isRate = d0.isRate ∧ MadeDist half d.config := by
  obtain ⟨k, hk, he⟩ := C64_population_declarations half d0.cls hne
  obtain ⟨h1, h2, h3, h4⟩ := assigned_made h k.params he h0
  exact ⟨h1, h2, h3, k, (by rw [← hk, ← h1]; rfl), h4⟩

theorem madeSpatial_config {free : FreeFlags} {d : DistObj F} (h : MadeSpatial free d) (half : F) :
    d.config.cls ∈ spatialNames ∧ MadeDist half d.config ∧
    (d.config.cls ∉ cosmoNames → d.config.isRate = .none) ∧ (d.cls, d.name) ∈ defaultNames := by
  obtain ⟨seed, b, h | h | h | h | h⟩ := h <;>
  obtain ⟨h1, h2, h3, h4⟩ := assigned_cls h half rfl (by simp [distDecls, newConstantSpherical,
    newZPowerSpherical, newZPowerCosmo, newSFR, newSpiralGalaxy]) <;>
  refine ⟨?_, h4, ?_, ?_⟩ <;>
  simp [DistObj.config, h1, h2, h3, newConstantSpherical, newZPowerSpherical, newZPowerCosmo, newSFR,
    newSpiralGalaxy, spatialNames, cosmoNames, defaultNames]

theorem madeLum_config {free : FreeFlags} {d : DistObj F} (h : MadeLum free d) (half : F) :
    d.config.cls ∈ lumNames ∧ MadeDist half d.config ∧ d.config.isRate = .none ∧
    (d.cls, d.name) ∈ defaultNames := by
  obtain ⟨seed, h | h | h | h | h⟩ := h <;>
  obtain ⟨h1, h2, h3, h4⟩ := assigned_cls h half rfl (by simp [distDecls, newBPL, newLogNormal,
    newLog10Normal, newPareto, newSchechter]) <;>
  refine ⟨?_, h4, ?_, ?_⟩ <;>
  simp [DistObj.config, h1, h2, h3, newBPL, newLogNormal, newLog10Normal, newPareto, newSchechter,
    lumNames, defaultNames]

theorem plain_used {s : NewSynth F} {i : String} (h : Used s.config i) : False := by
  induction h with
  | root h =>
    rcases h with ⟨k, h⟩ | h
    · cases h
    · cases h
  | sec _ _ _ ih => exact ih

theorem plain_built {free : FreeFlags} {s : NewSynth F} (h : Plain free s) (half : F)
    (rank : String → Nat) : BuiltSynth half rank s.config where
  spatial := ⟨(madeSpatial_config h.1 half).1, (madeSpatial_config h.1 half).2.1⟩
  rate := (madeSpatial_config h.1 half).2.2.1
  lum := by
    intro c hc
    obtain ⟨l, hl, rfl⟩ := Option.map_eq_some_iff.1 hc
    obtain ⟨h1, h2, h3, -⟩ := madeLum_config (h.2.1 l hl) half
    exact ⟨h1, h2, h3⟩
  flux := by intro s hs; cases hs
  dist := by intro s hs; cases hs
  spat := by intro s hs; cases hs
  sampler := fun i hi => (plain_used hi).elim
  names := fun i j c c' hi => (plain_used hi).elim
  auxKey := by intro k i c hk; cases hk
  secKey := fun i c k j c' hi => (plain_used hi).elim
  auxNodup := List.nodup_nil
  root := fun i c k j hi => (plain_used hi).elim
  acyclic := fun i c k j hi => (plain_used hi).elim
  derived := rfl

/-! ### Theorems -/

/-- **C71 (written and read).** A synth made by any class of `popsynth/populations`, with any
arguments its constructor accepts, can be written by `to_dict` and read by `from_dict`, and the
result is configured the same. -/
theorem C71_roundtrip (half : F) (hl : Literals half) (C : Conv F) (free : FreeFlags)
    (r : Except Err (NewSynth F)) (hr : ReadyMade free r) (s : NewSynth F) (hs : r = .ok s)
    (fuel : Nat) :
    ∃ d y' d', toDict (builtins half) fuel s.config = .ok d ∧
      fromDict (builtins half) C d = .ok y' d' ∧ SameConfig (builtins half) s.config y' := by
  refine C64_roundtrip_partial half hl C (fun _ => 0) fuel _
    (plain_built (readyMade_plain hr s hs) half _) fun _ hi => (plain_used (.root hi)).elim

/-- **C71 (arguments).** What is read has the arguments that were given to the constructor of the
population, and no other values. -/
theorem C71_arguments (half : F) (hl : Literals half) (C : Conv F) (free : FreeFlags)
    (r : Except Err (NewSynth F)) (hr : ReadyMade free r) (seed : Int) (name cls : String)
    (rate : Option Bool) (ps : List (Given F)) (lcls : String) (lps : List (Given F))
    (hb : Builds free r seed name cls rate ps lcls lps) (s : NewSynth F) (hs : r = .ok s)
    (fuel : Nat) :
    ∃ d y' d' l, toDict (builtins half) fuel s.config = .ok d ∧
      fromDict (builtins half) C d = .ok y' d' ∧ y'.seed = seed ∧
      y'.spatial.cls = cls ∧ truthOf y'.spatial.obj = ps.map (fun p => (p.param, p.value)) ∧
      y'.spatial.isRate = (match rate with | none => .none | some b => .bool b) ∧
      y'.lum = some l ∧ l.cls = lcls ∧ truthOf l.obj = lps.map (fun p => (p.param, p.value)) ∧
      y'.fluxSel = none ∧ y'.distSel = none ∧ y'.spatSel = none ∧ y'.aux = [] ∧ y'.derived = none := by
  obtain ⟨d, y', d', h1, h2, h3⟩ := C71_roundtrip half hl C free r hr s hs fuel
  by_cases ha : Allowed free cls ps ∧ Allowed free lcls lps
  swap
  · rw [hb.2 ha] at hs; cases hs
  obtain ⟨s', l, e, g1, -, g2, g3, g4, -⟩ := hb.1 ha
  rw [hs] at e
  cases e
  have hlum := h3.lum
  have hl' : s.config.lum = some l.config := by
    show s.luminosity.map _ = _
    rw [g3]; rfl
  rw [hl'] at hlum
  have none_of : ∀ {α : Type} {R : α → α → Prop} {o : Option α}, Opt R none o → o = none := by
    intro α R o h
    cases o with
    | none => rfl
    | some x => exact h.elim
  cases hy : y'.lum with
  | none => rw [hy] at hlum; exact hlum.elim
  | some l' =>
    rw [hy] at hlum
    refine ⟨d, y', d', l', h1, h2, h3.seed.trans g1, h3.spatial.1.trans g2.cls,
      h3.spatial.2.1.trans g2.truth, ?_, hy, hlum.1.trans g4.cls, hlum.2.1.trans g4.truth,
      none_of h3.flux, none_of h3.dist, none_of h3.spat, h3.aux, h3.derived⟩
    rw [h3.spatial.2.2, ← g2.isRate]
    rfl

/-- **C71 (survey).** The synth that is read draws the same surveys: whatever the methods of the
classes do, both held in memory as new objects and starting from the same random state, the same
population or the same exception. -/
theorem C71_survey (half : F) (hl : Literals half) (C : Conv F) (free : FreeFlags)
    (r : Except Err (NewSynth F)) (hr : ReadyMade free r) (s : NewSynth F) (hs : r = .ok s)
    (fuel : Nat) (K : Classes F G) (hK : FlagsRight (builtins half) K)
    (at1 : String → Nat) (sel1 : Role → Nat) (code1 : Nat → SamplerCode F G) (m : SurvSt F G)
    (hm : InMemory K s.config at1 sel1 code1 m) :
    ∃ d y' d', toDict (builtins half) fuel s.config = .ok d ∧
      fromDict (builtins half) C d = .ok y' d' ∧
      ∀ at2 sel2 code2 m', InMemory K y' at2 sel2 code2 m' → m.heap.rng = m'.heap.rng →
        ∀ (fuel' : Nat) (base : SurveyEnv F G) (args : SurveyArgs F), SameOutcome
          (drawSurvey (K.env (builtins half) fuel' base code1 s.config) (K.synth at1 sel1 s.config)
            args m)
          (drawSurvey (K.env (builtins half) fuel' base code2 y') (K.synth at2 sel2 y') args m') :=
  C68_rebuilt_partial (rank := fun _ => 0) C fuel
    (built_config half hl _ _ (plain_built (readyMade_plain hr s hs) half _))
    (fun _ hi => (plain_used (.root hi)).elim) hK (fun _ _ hi => (plain_used hi).elim) hm

/-- **C71 (in memory).** If classes give the names they give when none is passed, then the synth
has the name and seed that its constructor has set, and a survey uses the methods of the classes
of its distributions, with the flag `is_rate` given to the constructor. -/
theorem C71_in_memory (free : FreeFlags) (r : Except Err (NewSynth F)) (hr : ReadyMade free r)
    (s : NewSynth F) (hs : r = .ok s) (K : Classes F G)
    (hK : ∀ c n, (c, n) ∈ defaultNames → K.distName c = n) (at' : String → Nat)
    (sel : Role → Nat) (R : Registry F) (fuel : Nat) (base : SurveyEnv F G)
    (code : Nat → SamplerCode F G) :
    (K.synth at' sel s.config).name = s.name ∧ (K.synth at' sel s.config).seed = s.seed ∧
    (K.synth at' sel s.config).spatialName = s.spatial.name ∧
    (K.synth at' sel s.config).lumName = s.luminosity.map (·.name) ∧
    (K.env R fuel base code s.config).spatial =
      K.spatial s.spatial.cls (s.spatial.isRate.elim .none .bool) ∧
    ∀ l, s.luminosity = some l → (K.env R fuel base code s.config).lum = K.lum l.cls := by
  obtain ⟨h1, h2, h3⟩ := readyMade_plain hr s hs
  have hsp : K.distName s.config.spatial.cls = s.spatial.name :=
    hK _ _ (madeSpatial_config h1 0).2.2.2
  have hlum : (s.config.lum.map fun l => K.distName l.cls) = s.luminosity.map (·.name) := by
    show ((s.luminosity.map (·.config)).map fun l => K.distName l.cls) = _
    cases e : s.luminosity with
    | none => rfl
    | some l =>
      show some (K.distName l.cls) = some l.name
      rw [hK _ _ (madeLum_config (h2 l e) 0).2.2.2]
  refine ⟨?_, rfl, hsp, hlum, ?_, ?_⟩
  rotate_left
  · show K.spatial s.spatial.cls s.spatial.config.isRate = _
    unfold DistObj.config
    cases s.spatial.isRate <;> rfl
  · intro l hl
    show ((s.luminosity.map (·.config)).map fun l => K.lum l.cls).getD base.lum = _
    rw [hl]
    rfl
  show K.synthName s.config = _
  unfold Classes.synthName
  rw [h3]
  cases e : s.luminosity with
  | none =>
    have : s.config.lum = none := by show s.luminosity.map _ = _; rw [e]; rfl
    rw [this]
    simpa using hsp
  | some l =>
    have hc : s.config.lum = some l.config := by show s.luminosity.map _ = _; rw [e]; rfl
    rw [hc, e] at hlum
    have hlum : K.distName l.config.cls = l.name := Option.some.inj hlum
    rw [hc]
    show K.distName _ ++ "_" ++ K.distName l.config.cls = _
    rw [hsp, hlum]
    simp [String.append_assoc]

/-! ### Example -/

namespace ReadyMadeExample

open ConfigExample

/-- `ParetoSFRPopulation` with arguments, written and read. -/
example : ∃ s d y' d', paretoSFRPopulation (fun _ _ => true) (1 : Int) 2 3 4 5 6 7 8 9 false = .ok s ∧
    s.name = "sfr_pareto" ∧
    toDict (builtins 0) 1 s.config = .ok d ∧
    d = [("seed", .int 9),
      ("spatial distribution", .dict [("SFRDistribution", .dict [("r0", .num 1), ("a", .num 2),
        ("rise", .num 3), ("decay", .num 4), ("peak", .num 5), ("r_max", .num 8)]),
        ("is_rate", .bool false)]),
      ("luminosity distribution", .dict [("ParetoDistribution", .dict [("Lmin", .num 6),
        ("alpha", .num 7)])]),
      ("auxiliary samplers", .dict [])] ∧
    fromDict (builtins 0) conv d = .ok y' d' ∧ y'.spatial.isRate = .bool false ∧
    truthOf y'.spatial.obj = [("r0", 1), ("a", 2), ("rise", 3), ("decay", 4), ("peak", 5),
      ("r_max", 8)] :=
  ⟨_, _, _, _, rfl, rfl, rfl, rfl, rfl, rfl, rfl⟩

/-- `C71_arguments` says the same for all arguments. -/
example (r0 a ri de pe l al r : Int) (seed : Int) (b : Bool) (s : NewSynth Int)
    (hs : paretoSFRPopulation (fun _ _ => true) r0 a ri de pe l al r seed b = .ok s) :
    ∃ d y' d' l', toDict (builtins 0) 1 s.config = .ok d ∧ fromDict (builtins 0) conv d = .ok y' d' ∧
      truthOf y'.spatial.obj = [("r0", r0), ("a", a), ("rise", ri), ("decay", de), ("peak", pe),
        ("r_max", r)] ∧ y'.spatial.isRate = .bool b ∧ y'.lum = some l' ∧
      truthOf l'.obj = [("Lmin", l), ("alpha", al)] := by
  obtain ⟨d, y', d', l', h1, h2, -, -, h3, h4, h5, -, h6, -⟩ := C71_arguments 0
    (by constructor <;> decide) conv _ _ (.pareto4 r0 a ri de pe l al r seed b) _ _ _ _ _ _ _
    (C55_paretoSFRPopulation _ r0 a ri de pe l al r seed b) s hs 1
  exact ⟨d, y', d', l', h1, h2, h3, h4, h5, h6⟩

end ReadyMadeExample
end Popsynth
