import Verif.Model.UserClass
import Verif.Spec.UserClass
import Verif.Props.Builtins
import Mathlib.Tactic.ByContra
import Mathlib.Logic.Basic

/-!
# C83: classes that users derive
-/

set_option autoImplicit false
set_option linter.unusedSectionVars false

namespace Popsynth
open Spec

variable {F : Type}

theorem attrAbstract_iff : ∀ (c : PyClass F) (m : String), attrAbstract c m = true ↔ Pending c m
  | [], m => by
    simp only [attrAbstract, Bool.false_eq_true, false_iff]
    rintro ⟨front, b, back, h, -⟩
    cases front <;> cases h
  | b :: rest, m => by
    unfold attrAbstract
    have ih := attrAbstract_iff rest m
    by_cases h1 : m ∈ b.abstract
    · rw [if_pos h1]
      exact iff_of_true rfl ⟨[], b, rest, rfl, h1, by simp⟩
    · rw [if_neg h1]
      by_cases h2 : m ∈ b.defs
      · rw [if_pos h2]
        simp only [Bool.false_eq_true, false_iff]
        rintro ⟨front, x, back, h, h3, h4⟩
        cases front with
        | nil =>
          simp only [List.nil_append, List.cons.injEq] at h
          exact h1 (h.1 ▸ h3)
        | cons y front =>
          simp only [List.cons_append, List.cons.injEq] at h
          exact h4 y (by simp) (h.1 ▸ h2)
      · rw [if_neg h2, ih]
        constructor
        · rintro ⟨front, x, back, h, h3, h4⟩
          refine ⟨b :: front, x, back, by rw [h]; rfl, h3, fun y hy => ?_⟩
          rcases List.mem_cons.1 hy with rfl | hy
          · exact h2
          · exact h4 y hy
        · rintro ⟨front, x, back, h, h3, h4⟩
          cases front with
          | nil =>
            simp only [List.nil_append, List.cons.injEq] at h
            exact absurd (h.1 ▸ h3) h1
          | cons y front =>
            simp only [List.cons_append, List.cons.injEq] at h
            exact ⟨front, x, back, h.2, h3, fun z hz => h4 z (by simp [hz])⟩

/-- `cls.__abstractmethods__` are the methods still to be written. -/
theorem C83_abstract : ∀ (c : PyClass F) (m : String), m ∈ abstractMethods c ↔ Pending c m
  | [], m => by
    simp only [abstractMethods, List.not_mem_nil, false_iff]
    rintro ⟨front, b, back, h, -⟩
    cases front <;> cases h
  | b :: rest, m => by
    have ih := C83_abstract rest m
    simp only [abstractMethods, List.mem_append, List.mem_filter]
    rw [attrAbstract_iff, ih]
    constructor
    · rintro (h | h)
      · exact ⟨[], b, rest, rfl, h, by simp⟩
      · exact h.2
    · rintro ⟨front, x, back, h, h3, h4⟩
      cases front with
      | nil =>
        simp only [List.nil_append, List.cons.injEq] at h
        exact Or.inl (h.1 ▸ h3)
      | cons y front =>
        have h' := h
        simp only [List.cons_append, List.cons.injEq] at h'
        exact Or.inr ⟨⟨front, x, back, h'.2, h3, fun z hz => h4 z (by simp [hz])⟩, ⟨y :: front, x, back, h, h3, h4⟩⟩

theorem concrete_iff (c : PyClass F) : (abstractMethods c).isEmpty = true ↔ ∀ m, ¬ Pending c m := by
  rw [List.isEmpty_iff, List.eq_nil_iff_forall_not_mem]
  exact forall_congr' fun m => not_congr (C83_abstract c m)

theorem classTag_iff : ∀ (c : PyClass F) (t : String), classTag c = some t ↔ CalledName c t
  | [], t => by
    simp only [classTag, reduceCtorEq, false_iff]
    intro h; cases h
  | b :: rest, t => by
    unfold classTag
    cases hb : b.tag with
    | some u =>
      constructor
      · intro h; cases h; exact .own hb
      · intro h
        cases h with
        | own h => rw [hb] at h; exact h
        | inherited h _ => rw [hb] at h; cases h
    | none =>
      show classTag rest = some t ↔ _
      rw [classTag_iff rest t]
      constructor
      · exact .inherited hb
      · intro h
        cases h with
        | own h => rw [hb] at h; cases h
        | inherited _ h => exact h

/-- **C83.** What is registered after any class statements: under every name the last concrete class
of that name, and otherwise what was there before. -/
theorem C83_registry : ∀ (cs : List (PyClass F)) (R R' : Dict (PyClass F)), classStatements R cs = .ok R' → ∀ t,
    (∃ c, LastCalled cs t c ∧ R'.get? t = some c) ∨
    ((∀ c ∈ cs, CalledName c t → ∃ m, Pending c m) ∧ R'.get? t = R.get? t)
  | [], R, R', h, t => by cases h; exact Or.inr ⟨by simp, rfl⟩
  | c :: cs, R, R', h, t => by
    unfold classStatements at h
    cases h1 : classStatement R c with
    | error e => rw [h1] at h; cases h
    | ok R1 =>
      rw [h1] at h
      rcases C83_registry cs R1 R' h t with ⟨d, ⟨before, after, e, k⟩, hd⟩ | ⟨hn, hr⟩
      · exact Or.inl ⟨d, ⟨c :: before, after, by rw [e]; rfl, k⟩, hd⟩
      · unfold classStatement at h1
        by_cases hc : (abstractMethods c).isEmpty = true
        · rw [if_pos hc] at h1
          have hp := (concrete_iff c).1 hc
          cases ht : classTag c with
          | none => rw [ht] at h1; cases h1
          | some u =>
            rw [ht] at h1
            dsimp only at h1
            split at h1
            · cases h1
            · cases h1
              by_cases hu : u = t
              · subst hu
                refine Or.inl ⟨c, ⟨[], cs, rfl, (classTag_iff c u).1 ht, hp, hn⟩, ?_⟩
                rw [hr]; exact Dict.get?_set_self ..
              · refine Or.inr ⟨fun d hd hdt => ?_, ?_⟩
                · rcases List.mem_cons.1 hd with rfl | hd
                  · rw [(classTag_iff _ t).2 hdt] at ht
                    exact absurd (Option.some.inj ht).symm hu
                  · exact hn d hd hdt
                · rw [hr]; exact Dict.get?_set_ne _ _ hu
        · rw [if_neg hc] at h1
          cases h1
          refine Or.inr ⟨fun d hd hdt => ?_, hr⟩
          rcases List.mem_cons.1 hd with rfl | hd
          · by_contra hno
            exact hc ((concrete_iff _).2 fun m hm => hno ⟨m, hm⟩)
          · exact hn d hd hdt

/-- A class statement raises exactly if the class has no pending methods and no name. -/
theorem C83_raises (R : Dict (PyClass F)) (c : PyClass F) : (∃ e, classStatement R c = .error e) ↔
    (∀ m, ¬ Pending c m) ∧ ∀ t, CalledName c t → t = "" := by
  unfold classStatement
  by_cases hc : (abstractMethods c).isEmpty = true
  · rw [if_pos hc]
    have hp := (concrete_iff c).1 hc
    cases ht : classTag c with
    | none =>
      refine iff_of_true ⟨_, rfl⟩ ⟨hp, fun t h => ?_⟩
      rw [(classTag_iff c t).2 h] at ht; cases ht
    | some u =>
      dsimp only
      split
      · rename_i hu
        refine iff_of_true ⟨_, rfl⟩ ⟨hp, fun t h => ?_⟩
        rw [(classTag_iff c t).2 h] at ht; rw [Option.some.inj ht, hu]
      · rename_i hu
        refine iff_of_false (by rintro ⟨e, he⟩; cases he) fun h => hu (h.2 u ((classTag_iff c u).1 ht))
  · rw [if_neg hc]
    refine iff_of_false (by rintro ⟨e, he⟩; cases he) fun h => hc ((concrete_iff c).2 h.1)

/-! ### What has to be written -/

/-- Methods that remain for classes on top of `base`. -/
theorem pending_append (us base : PyClass F) (hu : ∀ b ∈ us, b.abstract = []) (m : String) :
    Pending (us ++ base) m ↔ Pending base m ∧ ∀ b ∈ us, m ∉ b.defs := by
  induction us with
  | nil => simp
  | cons u us ih =>
    have ih := ih fun b hb => hu b (by simp [hb])
    have hu0 := hu u (by simp)
    rw [← attrAbstract_iff, List.cons_append]
    unfold attrAbstract
    rw [hu0, if_neg (by simp)]
    by_cases h2 : m ∈ u.defs
    · rw [if_pos h2]
      refine iff_of_false (by simp) fun h => h.2 u (by simp) h2
    · rw [if_neg h2, attrAbstract_iff, ih]
      simp [h2]

section
variable [∀ n, OfNat F n]

/-- A class derived from one of the base classes, in any number of steps, can be used exactly if the
steps define all the methods the base class leaves open. -/
theorem C83_duties (base : PyClass F) (ms : List String) (h : (base, ms) ∈ duties) (us : PyClass F)
    (hu : ∀ b ∈ us, b.abstract = []) :
    (∀ m, ¬ Pending (us ++ base) m) ↔ ∀ m ∈ ms, ∃ b ∈ us, m ∈ b.defs := by
  have key : ∀ m, Pending base m ↔ m ∈ ms := by
    intro m
    rw [← C83_abstract]
    simp only [duties, List.mem_cons, Prod.mk.injEq, List.not_mem_nil, or_false] at h
    rcases h with ⟨rfl, rfl⟩ | ⟨rfl, rfl⟩ | ⟨rfl, rfl⟩ | ⟨rfl, rfl⟩ | ⟨rfl, rfl⟩ | ⟨rfl, rfl⟩ | ⟨rfl, rfl⟩ | ⟨rfl, rfl⟩ | ⟨rfl, rfl⟩ <;>
      simp [abstractMethods, attrAbstract, bSpatial, bDistribution, bSpherical, bCosmological, bLuminosity, bSelection,
        bSpatialSel, bSampler, bNonObserved, bDerivedLum]
  simp only [pending_append us base hu, key, not_and, not_forall, not_not, exists_prop]

/-- Such a class makes objects exactly if, besides, the arguments are those of its constructor. -/
theorem C83_usable (base : PyClass F) (ms : List String) (h : (base, ms) ∈ duties) (u : Body F) (us : PyClass F)
    (hu : ∀ b ∈ u :: us, b.abstract = []) (given : List String) :
    instantiable (u :: us ++ base) given = true ↔ (∀ m ∈ ms, ∃ b ∈ u :: us, m ∈ b.defs) ∧
      (∀ a ∈ u.init.required, a ∈ given) ∧ ∀ a ∈ given, a ∈ u.init.required ∨ a ∈ u.init.optional := by
  unfold instantiable
  rw [Bool.and_eq_true, concrete_iff, C83_duties base ms h (u :: us) hu]
  simp [initAccepts]

/-- What the constructors of these classes take, for subclasses that call them. -/
theorem C83_constructors (given : List String) :
    (initAccepts ([bSpatial, bDistribution] : PyClass F) given = true ↔
      "name" ∈ given ∧ "seed" ∈ given ∧ ∀ a ∈ given, a ∈ ["name", "seed", "form"]) ∧
    (initAccepts ([bLuminosity, bDistribution] : PyClass F) given = true ↔
      "name" ∈ given ∧ "seed" ∈ given ∧ ∀ a ∈ given, a ∈ ["name", "seed", "form"]) ∧
    (initAccepts ([bSpherical, bSpatial, bDistribution] : PyClass F) given = true ↔
      ∀ a ∈ given, a ∈ ["seed", "name", "form"]) ∧
    (initAccepts ([bCosmological, bSpatial, bDistribution] : PyClass F) given = true ↔
      ∀ a ∈ given, a ∈ ["seed", "name", "form", "truth", "is_rate"]) := by
  simp [initAccepts, bSpatial, bLuminosity, bSpherical, bCosmological, and_assoc]

theorem map_set {α : Type} (mk : PyClass F → α) : ∀ (R : Dict (PyClass F)) (t : String) (c : PyClass F),
    (Dict.set R t c).map (fun p => (p.1, mk p.2)) = Dict.set (R.map fun p => (p.1, mk p.2)) t (mk c)
  | [], t, c => rfl
  | (k, v) :: R, t, c => by
    show (if k = t then (k, c) :: R else (k, v) :: Dict.set R t c).map _ =
      if k = t then (k, mk c) :: R.map (fun p => (p.1, mk p.2)) else (k, mk v) :: Dict.set (R.map fun p => (p.1, mk p.2)) t (mk c)
    by_cases h : k = t
    · rw [if_pos h, if_pos h]; rfl
    · rw [if_neg h, if_neg h, List.map_cons, map_set mk R t c]

/-- Class statements of named classes do what `register` says. -/
theorem statements_register {α : Type} (mk : PyClass F → α) : ∀ (cs : List (PyClass F)) (R : Dict (PyClass F)),
    (∀ c ∈ cs, (abstractMethods c).isEmpty = true → ∃ t, classTag c = some t ∧ t ≠ "") →
    ∃ R', classStatements R cs = .ok R' ∧ R'.map (fun p => (p.1, mk p.2)) = cs.foldl (fun d c =>
      if (abstractMethods c).isEmpty then
        match classTag c with
        | none => d
        | some t => Dict.set d t (mk c)
      else d) (R.map fun p => (p.1, mk p.2))
  | [], R, _ => ⟨R, rfl, rfl⟩
  | c :: cs, R, h => by
    by_cases hc : (abstractMethods c).isEmpty = true
    · obtain ⟨t, ht, h0⟩ := h c (by simp) hc
      obtain ⟨R', h1, h2⟩ := statements_register mk cs (Dict.set R t c) fun d hd => h d (by simp [hd])
      refine ⟨R', ?_, ?_⟩
      · unfold classStatements classStatement
        rw [if_pos hc, ht]
        dsimp only
        rw [if_neg h0]
        exact h1
      · rw [h2, map_set, List.foldl_cons, if_pos hc, ht]
    · obtain ⟨R', h1, h2⟩ := statements_register mk cs R fun d hd => h d (by simp [hd])
      refine ⟨R', ?_, ?_⟩
      · unfold classStatements classStatement
        rw [if_neg hc]
        exact h1
      · rw [h2, List.foldl_cons, if_neg hc]

/-- The class statements of the package itself succeed and leave the registries of C64. -/
theorem C83_package (half : F) :
    (∃ R, classStatements [] distClasses = .ok R ∧ (R.map fun p => (p.1, asDist (F := F) p.2)) = (builtins half).dists) ∧
    (∃ R, classStatements [] (selClasses half) = .ok R ∧ (R.map fun p => (p.1, asSel (F := F) p.2)) = (builtins half).sels) ∧
    (∃ R, classStatements [] samplerClasses = .ok R ∧
      (R.map fun p => (p.1, asSampler (F := F) p.2)) = (builtins half).samplers) := by
  have e1 : (builtins half).dists = register asDist distClasses := by simp only [builtins]
  have e2 : (builtins half).sels = register asSel (selClasses half) := by simp only [builtins]
  have e3 : (builtins half).samplers = register asSampler samplerClasses := by simp only [builtins]
  rw [e1, e2, e3]
  unfold register
  refine ⟨statements_register asDist distClasses [] ?_, statements_register asSel (selClasses half) [] ?_,
    statements_register asSampler samplerClasses [] ?_⟩
  · simp [distClasses, abstractMethods, attrAbstract, classTag, bDistribution,
      bSpatial, bLuminosity, bSpherical, bConstantSpherical, bZPowerSpherical, bSpiralGalaxy,
      bFlatland, bCosmological, bSFR, bZPowerCosmo, bUniformCosmo, bBPL, bLogNormal, bLog10Normal,
      bPareto, bSchechter, bDelta, bLogUni]
  · simp [selClasses, abstractMethods, attrAbstract, classTag, bSelection, bDummy,
      bUnity, bBernoulli, bBox, bLower, bUpper, bSoft, bHardFlux, bSoftFlux, bSpatialSel,
      bGalacticPlane, bDistanceSel]
  · simp [samplerClasses, abstractMethods, attrAbstract, classTag, bSampler,
      bNonObserved, bDerivedLum, bDeltaAux, bLogNormalAux, bLog10NormalAux, bNormalAux, bParetoAux,
      bPowerLawAux, bBrokenPowerLawAux, bTruncNormalAux, bTruncLogNormalAux, bTruncLog10NormalAux,
      bViewingAngle, bNamed, bUnnamed]

/-- After `import popsynth`, a user's distribution with a name of its own is what a configuration with that name
gets, and no name of the package changes its meaning. -/
theorem C83_user (R R' : Dict (PyClass F)) (c : PyClass F) (t : String) (h : classStatement R c = .ok R')
    (hc : ∀ m, ¬ Pending c m) (ht : CalledName c t) : R'.get? t = some c ∧ ∀ u, u ≠ t → R'.get? u = R.get? u := by
  unfold classStatement at h
  rw [if_pos ((concrete_iff c).2 hc), (classTag_iff c t).2 ht] at h
  dsimp only at h
  split at h
  · cases h
  · cases h
    exact ⟨Dict.get?_set_self .., fun u hu => Dict.get?_set_ne _ _ (Ne.symm hu)⟩

/-- **C83 is violated** by classes derived from a concrete class without a name of their own: they take the place of
that class, so that configurations which ask for it get the new one. -/
theorem C83_violated_replaced (R : Dict (PyClass F)) (us base : PyClass F) (t : String) (ht : CalledName base t) (h0 : t ≠ "")
    (hb : ∀ m, ¬ Pending base m) (hu : ∀ b ∈ us, b.abstract = [] ∧ b.tag = none) :
    ∃ R', classStatement R (us ++ base) = .ok R' ∧ R'.get? t = some (us ++ base) := by
  have hn : CalledName (us ++ base) t := by
    induction us with
    | nil => exact ht
    | cons u us ih =>
      exact .inherited (hu u (by simp)).2 (ih fun b hb => hu b (by simp [hb]))
  have hp : ∀ m, ¬ Pending (us ++ base) m := fun m h =>
    hb m ((pending_append us base (fun b hb => (hu b hb).1) m).1 h).1
  refine ⟨Dict.set R t (us ++ base), ?_, Dict.get?_set_self ..⟩
  unfold classStatement
  rw [if_pos ((concrete_iff _).2 hp), (classTag_iff _ t).2 hn]
  dsimp only
  rw [if_neg h0]

/-- **C83 is violated** by selections and samplers without a name, whose class statements raise, while distributions
without a name are taken for their base class. -/
theorem C83_violated_unnamed (R : Dict (PyClass F)) (u : Body F) (hu : u.abstract = []) (ht : u.tag = none) :
    ("draw" ∈ u.defs → classStatement R [u, bSelection] = .error .attribute) ∧
    ("true_sampler" ∈ u.defs → classStatement R [u, bSampler] = .error .attribute) ∧
    ("phi" ∈ u.defs → "draw_luminosity" ∈ u.defs →
      ∃ R', classStatement R [u, bLuminosity, bDistribution] = .ok R' ∧
        R'.get? "LuminosityDistribtuion" = some [u, bLuminosity, bDistribution]) := by
  refine ⟨fun h => ?_, fun h => ?_, fun h1 h2 => ?_⟩
  · simp [classStatement, abstractMethods, attrAbstract, classTag, hu, ht, bSelection, h]
  · simp [classStatement, abstractMethods, attrAbstract, classTag, hu, ht, bSampler, h]
  · refine ⟨Dict.set R "LuminosityDistribtuion" [u, bLuminosity, bDistribution], ?_, Dict.get?_set_self ..⟩
    simp [classStatement, abstractMethods, attrAbstract, classTag, hu, ht, bLuminosity, bDistribution, h1, h2]

end

/-! ### Examples -/

namespace UserClassExample

/-- `class Mine(LuminosityDistribution): _distribution_name = "Mine"; def phi ...; def draw_luminosity ...` -/
def mine : Body Int where
  cls := "Mine"
  tag := some "Mine"
  defs := ["phi", "draw_luminosity"]
  init := {}

/-- `class Half(LuminosityDistribution): ... def phi ...` -/
def half : Body Int where
  cls := "Half"
  tag := some "Half"
  defs := ["phi"]
  init := {}

/-- `class Steep(ParetoDistribution): ...` without a name -/
def steep : Body Int where
  cls := "Steep"
  defs := ["phi"]
  init := {}

example : (∀ m, ¬ Pending ([mine] ++ [bLuminosity, bDistribution]) m) ∧
    ¬ ∀ m, ¬ Pending ([half] ++ [bLuminosity, bDistribution]) m := by
  constructor
  · rw [C83_duties _ ["phi", "draw_luminosity"] (by simp [duties]) [mine] (by simp [mine])]
    simp [mine]
  · rw [C83_duties _ ["phi", "draw_luminosity"] (by simp [duties]) [half] (by simp [half])]
    simp [half]

example : ∃ R, classStatements [] (distClasses ++ [[mine, bLuminosity, bDistribution]]) = .ok R ∧
    (R.get? "Mine").map (fun c => c.map (·.cls)) = some ["Mine", "LuminosityDistribution", "Distribution"] ∧
    (R.get? "ParetoDistribution").map (fun c => c.map (·.cls)) = some ["ParetoDistribution", "LuminosityDistribution", "Distribution"] :=
  ⟨_, rfl, by decide, by decide⟩

example : ∃ R, classStatements [] (distClasses ++ [[steep, bPareto, bLuminosity, bDistribution]]) = .ok R ∧
    (R.get? "ParetoDistribution").map (fun c => c.map (·.cls)) =
      some ["Steep", "ParetoDistribution", "LuminosityDistribution", "Distribution"] :=
  ⟨_, rfl, by decide⟩

end UserClassExample

end Popsynth
