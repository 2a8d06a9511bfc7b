import Verif.Spec.AuxSamplers
import Verif.Lemmas.Param
import Mathlib.Tactic.Common

/-! Helper lemmas for the built-in samplers (C62). -/

set_option autoImplicit false
set_option linter.unusedSectionVars false

namespace Popsynth
open Spec
variable {F G : Type}

/-! ### Drawing -/

theorem drawMany_length {α : Type} (f : G → α × G) (n : Nat) (g : G) :
    (drawMany f n g).1.length = n := by
  induction n generalizing g with
  | zero => rfl
  | succ n ih => simp [drawMany, ih]

theorem drawMany_through {α β : Type} (f : α → β) (gen : G → α × G) (n : Nat) (g : G) :
    drawMany (through f gen) n g = ((drawMany gen n g).1.map f, (drawMany gen n g).2) := by
  induction n generalizing g with
  | zero => rfl
  | succ n ih => simp [drawMany, through, ih]

theorem drawMany_const {α : Type} (x : α) (n : Nat) (g : G) :
    drawMany (fun g => (x, g)) n g = (List.replicate n x, g) := by
  induction n with
  | zero => rfl
  | succ n ih => simp [drawMany, ih, List.replicate_succ]

theorem drawMany_all {α : Type} {p : α → Prop} {f : G → α × G} (h : ∀ g, p (f g).1) (n : Nat)
    (g : G) : ∀ x ∈ (drawMany f n g).1, p x := by
  induction n generalizing g with
  | zero => intro x hx; cases hx
  | succ n ih =>
    intro x hx
    simp only [drawMany, List.mem_cons] at hx
    rcases hx with rfl | hx
    · exact h g
    · exact ih _ x hx

theorem drawMany_located (env : AuxEnv F G) (gen : G → F × G) (loc scale : F) (n : Nat) (g : G) :
    drawMany (located env gen loc scale) n g =
      if env.eq scale (env.num 0) then (List.replicate n loc, g)
      else ((drawMany gen n g).1.map fun z => env.add (env.mul z scale) loc, (drawMany gen n g).2) := by
  by_cases h : env.eq scale (env.num 0) = true
  · have : located env gen loc scale = fun g => (loc, g) := by
      funext g; simp [located, h]
    rw [this, drawMany_const, if_pos h]
  · have : located env gen loc scale = through (fun z => env.add (env.mul z scale) loc) gen := by
      funext g; simp [located, h, through]
    rw [this, drawMany_through, if_neg h]

theorem zipWith_replicate {α β γ : Type} (f : α → β → γ) (x : α) (l : List β) :
    List.zipWith f (List.replicate l.length x) l = l.map (f x) := by
  induction l with
  | nil => rfl
  | cons y l ih => simp [List.replicate_succ, ih]

/-! ### Reading -/

/-- The parameter storage after reading one parameter. -/
def readSt (env : AuxEnv F G) (k : AuxKind) (o : Obj F) (name : String) : Obj F :=
  match Dict.get? (auxDecl env k) name with
  | none => o
  | some d => endState (paramGet d name o)

variable {env : AuxEnv F G} {k : AuxKind}

theorem inForce_eq (d : ParamDecl F) (name : String) (o : Obj F) :
    inForce d name o = ((Dict.get? o.storage name).join).or d.default := by
  unfold inForce
  rcases Dict.get? o.storage name with _ | _ | x <;> simp

theorem outcome_get (d : ParamDecl F) (name : String) (o : Obj F) :
    paramGet d name o = match inForce d name o with
      | some x => .ok x (endState (paramGet d name o))
      | none => .error .assertion (endState (paramGet d name o)) := by
  rw [paramGet_eq, inForce_eq]
  cases (Dict.get? o.storage name).join with
  | some x => rfl
  | none => cases d.default <;> rfl

theorem auxAttr_eq (env : AuxEnv F G) (k : AuxKind) (name : String) (s : CodeSt F G) :
    auxAttr env k name s = match Dict.get? (auxDecl env k) name with
      | none => .error .attribute s
      | some d => match inForce d name s.params with
        | some x => .ok x { s with params := readSt env k s.params name }
        | none => .error .assertion { s with params := readSt env k s.params name } := by
  unfold auxAttr readSt
  cases h : Dict.get? (auxDecl env k) name with
  | none => rfl
  | some d =>
    simp only
    rw [outcome_get]
    cases inForce d name s.params <;> rfl

theorem auxAttr_ok {V : String → F} {name : String} {s : CodeSt F G}
    (h : HasValues env k V s.params) (hn : (Dict.get? (auxDecl env k) name).isSome = true) :
    auxAttr env k name s = .ok (V name) { s with params := readSt env k s.params name } := by
  rw [auxAttr_eq]
  obtain ⟨d, hd⟩ := Option.isSome_iff_exists.1 hn
  rw [hd]
  simp only [h name d hd]

/-- Storage after reading: the cell read holds the value in force. -/
theorem readSt_get (o : Obj F) (m name : String) :
    Dict.get? (readSt env k o m).storage name =
      match Dict.get? (auxDecl env k) m with
      | none => Dict.get? o.storage name
      | some d => if m = name then some (inForce d name o) else Dict.get? o.storage name := by
  unfold readSt
  cases hd : Dict.get? (auxDecl env k) m with
  | none => rfl
  | some d =>
    simp only
    rw [storage_after_get, inForce_eq]
    by_cases hm : m = name
    · subst hm
      rcases hs : Dict.get? o.storage m with _ | _ | x <;> simp
    · simp [hm]

theorem readSt_norm (o : Obj F) (m : String) : (readSt env k o m).norm = o.norm := by
  unfold readSt
  cases hd : Dict.get? (auxDecl env k) m with
  | none => rfl
  | some d =>
    have : d.isNorm = false := by
      have := Dict.mem_of_get? hd
      cases k <;> simp [auxDecl] at this <;>
        aesop
    simp only
    rw [paramGet_eq]
    cases (Dict.get? o.storage m).join with
    | some x => simp [endState, touchNorm, this]
    | none => cases hdf : d.default <;> simp [endState, touchNorm, this]

theorem readSt_inForce (o : Obj F) (m name : String) {d : ParamDecl F}
    (hd : Dict.get? (auxDecl env k) name = some d) :
    inForce d name (readSt env k o m) = inForce d name o := by
  rw [inForce_eq, readSt_get]
  cases hm : Dict.get? (auxDecl env k) m with
  | none => simp [inForce_eq]
  | some d' =>
    simp only
    split
    · rename_i e; subst e
      rw [hd] at hm; cases hm
      rw [inForce_eq]
      rcases Dict.get? o.storage m with _ | _ | x <;> cases d.default <;> simp
    · rw [inForce_eq]

@[simp] theorem hasValues_readSt {V : String → F} (o : Obj F) (m : String) :
    HasValues env k V (readSt env k o m) ↔ HasValues env k V o := by
  unfold HasValues
  constructor
  · intro h name d hd
    rw [← readSt_inForce o m name hd]; exact h name d hd
  · intro h name d hd
    rw [readSt_inForce o m name hd]; exact h name d hd

theorem readSt_nodup (o : Obj F) (m : String) (h : (Dict.keys o.storage).Nodup) :
    (Dict.keys (readSt env k o m).storage).Nodup := by
  unfold readSt
  cases Dict.get? (auxDecl env k) m with
  | none => exact h
  | some d => exact nodup_paramGet _ _ _ h

/-- After some reads. -/
def readMany (env : AuxEnv F G) (k : AuxKind) (names : List String) (o : Obj F) : Obj F :=
  names.foldl (readSt env k) o

theorem readMany_hasValues {V : String → F} {o : Obj F} (names : List String)
    (h : HasValues env k V o) : HasValues env k V (readMany env k names o) := by
  induction names generalizing o with
  | nil => exact h
  | cons m names ih => exact ih ((hasValues_readSt o m).2 h)

theorem readMany_inForce (o : Obj F) (names : List String) (name : String) {d : ParamDecl F}
    (hd : Dict.get? (auxDecl env k) name = some d) :
    inForce d name (readMany env k names o) = inForce d name o := by
  induction names generalizing o with
  | nil => rfl
  | cons m names ih => exact (ih _).trans (readSt_inForce o m name hd)

theorem readMany_norm (o : Obj F) (names : List String) :
    (readMany env k names o).norm = o.norm := by
  induction names generalizing o with
  | nil => rfl
  | cons m names ih => exact (ih _).trans (readSt_norm o m)

theorem readMany_nodup (o : Obj F) (names : List String) (h : (Dict.keys o.storage).Nodup) :
    (Dict.keys (readMany env k names o).storage).Nodup := by
  induction names generalizing o with
  | nil => exact h
  | cons m names ih => exact ih _ (readSt_nodup o m h)

theorem readMany_get (o : Obj F) (names : List String) (name : String) {d : ParamDecl F}
    (hd : Dict.get? (auxDecl env k) name = some d) :
    Dict.get? (readMany env k names o).storage name =
      if name ∈ names then some (inForce d name o) else Dict.get? o.storage name := by
  induction names generalizing o with
  | nil => rfl
  | cons m names ih =>
    show Dict.get? (readMany env k names (readSt env k o m)).storage name = _
    rw [ih, readSt_inForce o m name hd, readSt_get]
    by_cases hm : m = name
    · subst hm; simp [hd]
    · have : ¬ name = m := fun e => hm e.symm
      by_cases hn : name ∈ names
      · simp [hn]
      · simp [hn, this]
        cases Dict.get? (auxDecl env k) m <;> simp [hm]

theorem readMany_undeclared (o : Obj F) (names : List String) (name : String)
    (hd : Dict.get? (auxDecl env k) name = none) :
    Dict.get? (readMany env k names o).storage name = Dict.get? o.storage name := by
  induction names generalizing o with
  | nil => rfl
  | cons m names ih =>
    show Dict.get? (readMany env k names (readSt env k o m)).storage name = _
    rw [ih, readSt_get]
    cases h : Dict.get? (auxDecl env k) m with
    | none => rfl
    | some d =>
      have : m ≠ name := fun e => by rw [e, hd] at h; cases h
      simp [this]

variable [LE F] [DecidableLE F]

/-! ### Random variates -/

theorem normRvs_replicate {loc scale : F} (h : env.num 0 ≤ scale) (n : Nat) (s : CodeSt F G) :
    normRvs env (List.replicate n loc) scale n s =
      .ok (drawMany (located env env.normal loc scale) n s.rng).1
        { s with rng := (drawMany (located env env.normal loc scale) n s.rng).2 } := by
  unfold normRvs
  rw [drawMany_located]
  simp only [List.length_replicate, ne_eq, not_true_eq_false, if_false, if_pos h]
  split
  · rfl
  · simp only [bind_apply, sampleRng, pure_apply]
    congr 1
    have := zipWith_replicate (fun m z => env.add (env.mul z scale) m) loc
      (drawMany env.normal n s.rng).1
    rw [drawMany_length] at this
    exact this

theorem normRvs_list {loc : List F} {scale : F} {n : Nat} (hl : loc.length = n)
    (h : env.num 0 ≤ scale) (s : CodeSt F G) :
    normRvs env loc scale n s =
      if env.eq scale (env.num 0) then .ok loc s
      else .ok (List.zipWith (fun m z => env.add (env.mul z scale) m) loc
        (drawMany env.normal n s.rng).1) { s with rng := (drawMany env.normal n s.rng).2 } := by
  unfold normRvs
  simp only [hl, ne_eq, not_true_eq_false, if_false, if_pos h]
  split
  · rfl
  · simp only [bind_apply, sampleRng, pure_apply]

theorem truncnormRvs_eq {a b loc scale : F} (hab : env.lt a b = true) (h : env.num 0 ≤ scale)
    (n : Nat) (s : CodeSt F G) :
    truncnormRvs env a b loc scale n s =
      .ok (drawMany (located env (env.truncStd a b) loc scale) n s.rng).1
        { s with rng := (drawMany (located env (env.truncStd a b) loc scale) n s.rng).2 } := by
  unfold truncnormRvs
  rw [drawMany_located]
  simp only [hab, h, true_and, if_true]
  split
  · rfl
  · simp only [bind_apply, sampleRng, pure_apply]

/-! ### True values -/

theorem assertLimits_ok {V : String → F} {k : AuxKind} {x : List F} {s : CodeSt F G}
    (h : HasValues env k V s.params)
    (hl : (Dict.get? (auxDecl env k) "lower").isSome = true)
    (hu : (Dict.get? (auxDecl env k) "upper").isSome = true)
    (hx : ∀ v ∈ x, V "lower" ≤ v ∧ v ≤ V "upper") :
    assertLimits env k x s = .ok () { s with params := readMany env k ["lower", "upper"] s.params } := by
  have e1 : (x.all fun v => decide (V "lower" ≤ v)) = true := by
    simpa using fun v hv => (hx v hv).1
  have e2 : (x.all fun v => decide (v ≤ V "upper")) = true := by
    simpa using fun v hv => (hx v hv).2
  unfold assertLimits
  rw [bind_of_ok (auxAttr_ok h hl)]
  simp only [bind_apply, e1, pyAssert, if_true, pure_apply]
  rw [auxAttr_ok ((hasValues_readSt _ _).2 h) hu]
  simp only [e2, if_true, pure_apply]
  rfl

theorem lowerLimit_ok {V : String → F} {k : AuxKind} {s : CodeSt F G}
    (h : HasValues env k V s.params) (hk : k = .truncLogNormal ∨ k = .truncLog10Normal) :
    ∃ names, "lower" ∈ names ∧ lowerLimit env k s =
      .ok (lowExponent env V) { s with params := readMany env k names s.params } := by
  have hl : ∀ name ∈ ["lower", "mu", "tau"], (Dict.get? (auxDecl env k) name).isSome = true := by
    rcases hk with rfl | rfl <;> simp [auxDecl, Dict.get?]
  unfold lowerLimit lowExponent
  rw [bind_of_ok (auxAttr_ok h (hl _ (by simp)))]
  by_cases hz : env.eq (V "lower") (env.num 0) = true
  · rw [if_pos hz, if_pos hz, bind_of_ok (auxAttr_ok (by simpa using h) (hl _ (by simp))),
      bind_of_ok (auxAttr_ok (by simpa using h) (hl _ (by simp)))]
    exact ⟨["lower", "mu", "tau"], by simp, rfl⟩
  · rw [if_neg hz, if_neg hz, bind_of_ok (auxAttr_ok (by simpa using h) (hl _ (by simp)))]
    exact ⟨["lower", "lower"], by simp, rfl⟩

theorem truncLogCode_ok {V : String → F} {k : AuxKind} {s : CodeSt F G} {logUp power : F → F}
    {gen : G → F × G} (h : HasValues env k V s.params)
    (hk : k = .truncLogNormal ∨ k = .truncLog10Normal)
    (ht : env.num 0 ≤ V "tau")
    (hab : env.lt (stdLimit env V (lowExponent env V)) (stdLimit env V (logUp (V "upper"))) = true)
    (hg : gen = through power (located env (env.truncStd (stdLimit env V (lowExponent env V))
      (stdLimit env V (logUp (V "upper")))) (V "mu") (V "tau")))
    (hin : Inside gen (V "lower") (V "upper")) (n : Nat) :
    ∃ names, (∀ name ∈ ["mu", "tau", "lower", "upper"], name ∈ names) ∧
      truncLogCode env k logUp power n s = .ok ()
        { s with params := readMany env k names s.params,
                 trueVals := some (drawMany gen n s.rng).1, rng := (drawMany gen n s.rng).2 } := by
  have hl : ∀ name ∈ ["lower", "upper", "mu", "tau"],
      (Dict.get? (auxDecl env k) name).isSome = true := by
    rcases hk with rfl | rfl <;> simp [auxDecl, Dict.get?]
  obtain ⟨names, hn, e⟩ := lowerLimit_ok h hk
  have h' : HasValues env k V (readMany env k names s.params) := readMany_hasValues names h
  unfold truncLogCode
  rw [bind_of_ok e, bind_of_ok (auxAttr_ok h' (hl _ (by simp))),
    bind_of_ok (auxAttr_ok (by simpa using h') (hl _ (by simp))),
    bind_of_ok (auxAttr_ok (by simpa using h') (hl _ (by simp))),
    bind_of_ok (auxAttr_ok (by simpa using h') (hl _ (by simp))),
    bind_of_ok (auxAttr_ok (by simpa using h') (hl _ (by simp))),
    bind_of_ok (auxAttr_ok (by simpa using h') (hl _ (by simp))),
    bind_of_ok (auxAttr_ok (by simpa using h') (hl _ (by simp))),
    bind_of_ok (truncnormRvs_eq (by exact hab) ht _ _)]
  simp only
  have hin' : ∀ x ∈ (drawMany gen n s.rng).1, V "lower" ≤ x ∧ x ≤ V "upper" :=
    drawMany_all (p := fun x => V "lower" ≤ x ∧ x ≤ V "upper") hin _ _
  have em : (drawMany gen n s.rng) =
      ((drawMany (located env (env.truncStd (stdLimit env V (lowExponent env V))
        (stdLimit env V (logUp (V "upper")))) (V "mu") (V "tau")) n s.rng).1.map power,
       (drawMany (located env (env.truncStd (stdLimit env V (lowExponent env V))
        (stdLimit env V (logUp (V "upper")))) (V "mu") (V "tau")) n s.rng).2) := by
    rw [hg, drawMany_through]
  rw [em] at hin' ⊢
  refine ⟨names ++ ["upper", "mu", "tau", "mu", "tau", "mu", "tau", "lower", "upper"], by simp, ?_⟩
  unfold setTrue
  rw [bind_apply, modify_apply]
  simp only
  refine (assertLimits_ok ?_ (hl _ (by simp)) (hl _ (by simp)) hin').trans ?_
  · simpa using h'
  · simp only [readMany, List.foldl_append]
    rfl

theorem truncNormalCode_ok {V : String → F} {s : CodeSt F G}
    (h : HasValues env .truncNormal V s.params) (hu : Usable env V .truncNormal) (n : Nat) :
    ∃ names, (∀ name, Declared env .truncNormal name → name ≠ "sigma" → name ∈ names) ∧
      truncNormalCode env n s = .ok ()
        { s with params := readMany env .truncNormal names s.params,
                 trueVals := some (drawMany (recipe env V .truncNormal) n s.rng).1,
                 rng := (drawMany (recipe env V .truncNormal) n s.rng).2 } := by
  obtain ⟨ht, hd, hab, hin⟩ := hu
  have hl : ∀ name ∈ ["lower", "upper", "mu", "tau"],
      (Dict.get? (auxDecl env .truncNormal) name).isSome = true := by
    simp [auxDecl, Dict.get?]
  refine ⟨["lower", "mu", "tau", "upper", "mu", "tau", "mu", "tau"] ++ ["lower", "upper"],
    by simp [Declared, auxDecl, Dict.keys], ?_⟩
  have hin' := drawMany_all (p := fun x => V "lower" ≤ x ∧ x ≤ V "upper") hin n s.rng
  unfold truncNormalCode
  rw [bind_of_ok (auxAttr_ok h (hl _ (by simp))), bind_of_ok (auxAttr_ok (by simpa using h) (hl _ (by simp))),
    bind_of_ok (auxAttr_ok (by simpa using h) (hl _ (by simp))), hd _ (by simp)]
  rw [bind_of_ok (x := liftE _) (by exact rfl),
    bind_of_ok (auxAttr_ok (by simpa using h) (hl _ (by simp))),
    bind_of_ok (auxAttr_ok (by simpa using h) (hl _ (by simp))),
    bind_of_ok (auxAttr_ok (by simpa using h) (hl _ (by simp))), hd _ (by simp)]
  rw [bind_of_ok (x := liftE _) (by exact rfl),
    bind_of_ok (auxAttr_ok (by simpa using h) (hl _ (by simp))),
    bind_of_ok (auxAttr_ok (by simpa using h) (hl _ (by simp))),
    bind_of_ok (truncnormRvs_eq hab ht _ _)]
  simp only [recipe] at hin' ⊢
  unfold setTrue
  rw [bind_apply, modify_apply]
  simp only
  refine (assertLimits_ok ?_ (hl _ (by simp)) (hl _ (by simp)) hin').trans ?_
  · simpa using h
  · simp only [readMany, List.foldl_append, List.foldl_cons, List.foldl_nil]

/-- **What `true_sampler` does** when every parameter has a usable value: reads (at least) all
declared parameters except the measurement error, and follows the recipe `n` times. -/
theorem auxTrue_ok {V : String → F} {s : CodeSt F G} (hk : k ≠ .brokenPowerLaw)
    (h : HasValues env k V s.params) (hu : Usable env V k) (n : Nat) :
    ∃ names, (∀ name, Declared env k name → name ≠ "sigma" → name ∈ names) ∧
      auxTrue env k n s = .ok ()
        { s with params := readMany env k names s.params,
                 trueVals := some (drawMany (recipe env V k) n s.rng).1,
                 rng := (drawMany (recipe env V k) n s.rng).2 } := by
  cases k with
  | brokenPowerLaw => exact absurd rfl hk
  | normal =>
    refine ⟨["mu", "tau"], by simp [Declared, auxDecl, Dict.keys], ?_⟩
    show normalCode env n s = _
    unfold normalCode
    rw [bind_of_ok (auxAttr_ok h rfl), bind_of_ok (auxAttr_ok (by simpa using h) rfl),
      bind_of_ok (normRvs_replicate hu _ _)]
    rfl
  | logNormal =>
    refine ⟨["mu", "tau"], by simp [Declared, auxDecl, Dict.keys], ?_⟩
    show logNormalCode env n s = _
    unfold logNormalCode
    rw [bind_of_ok (auxAttr_ok h rfl), bind_of_ok (auxAttr_ok (by simpa using h) rfl),
      bind_of_ok (normRvs_replicate hu _ _)]
    simp only [recipe, drawMany_through]
    rfl
  | log10Normal =>
    refine ⟨["mu", "tau"], by simp [Declared, auxDecl, Dict.keys], ?_⟩
    show log10NormalCode env n s = _
    unfold log10NormalCode
    rw [bind_of_ok (auxAttr_ok h rfl), bind_of_ok (auxAttr_ok (by simpa using h) rfl),
      bind_of_ok (normRvs_replicate hu _ _)]
    simp only [recipe, drawMany_through]
    rfl
  | delta =>
    refine ⟨["xp"], by simp [Declared, auxDecl, Dict.keys], ?_⟩
    show deltaCode env n s = _
    unfold deltaCode
    rw [bind_of_ok (auxAttr_ok h rfl)]
    simp only [recipe, drawMany_const]
    rfl
  | truncNormal => exact truncNormalCode_ok h hu n
  | truncLogNormal =>
    obtain ⟨ht, hab, hin⟩ := hu
    obtain ⟨names, hn, e⟩ := truncLogCode_ok (logUp := env.log) (power := env.exp) h (.inl rfl) ht
      hab rfl hin n
    refine ⟨names, ?_, e⟩
    intro name hd hs
    simp [Declared, auxDecl, Dict.keys] at hd
    exact hn _ (by simpa using by tauto)
  | truncLog10Normal =>
    obtain ⟨ht, hab, hin⟩ := hu
    obtain ⟨names, hn, e⟩ := truncLogCode_ok (logUp := env.log10) (power := env.exp10) h (.inr rfl) ht
      hab rfl hin n
    refine ⟨names, ?_, e⟩
    intro name hd hs
    simp [Declared, auxDecl, Dict.keys] at hd
    exact hn _ (by simpa using by tauto)
  | pareto =>
    refine ⟨["alpha", "xmin"], by simp [Declared, auxDecl, Dict.keys], ?_⟩
    show paretoCode env n s = _
    unfold paretoCode
    rw [bind_of_ok (auxAttr_ok h rfl), if_neg (by exact hu)]
    simp only [recipe, drawMany_through]
    rw [bind_of_ok (x := sampleRng _) rfl, bind_of_ok (auxAttr_ok (by simpa using h) rfl)]
    rfl
  | powerLaw =>
    refine ⟨["xmin", "xmax", "alpha"], by simp [Declared, auxDecl, Dict.keys], ?_⟩
    show powerLawCode env n s = _
    unfold powerLawCode
    rw [bind_of_ok (auxAttr_ok h rfl), bind_of_ok (auxAttr_ok (by simpa using h) rfl),
      bind_of_ok (auxAttr_ok (by simpa using h) rfl)]
    simp only [recipe, drawMany_through]
    rfl
  | viewingAngle =>
    refine ⟨["max_angle"], by simp [Declared, auxDecl, Dict.keys], ?_⟩
    show viewingAngleCode env n s = _
    unfold viewingAngleCode
    rw [bind_of_ok (auxAttr_ok h rfl)]
    simp only [recipe, drawMany_through]
    rfl
  | ra =>
    refine ⟨[], by simp [Declared, auxDecl, Dict.keys], ?_⟩
    show raCode env n s = _
    unfold raCode
    simp only [recipe, drawMany_through]
    rfl
  | dec =>
    refine ⟨[], by simp [Declared, auxDecl, Dict.keys], ?_⟩
    show decCode env n s = _
    unfold decCode
    simp only [recipe, drawMany_through]
    rfl

/-- The same for the broken power law: all uniform numbers, then all trials. -/
theorem bplTrue_ok {V : String → F} {s : CodeSt F G} (h : HasValues env .brokenPowerLaw V s.params)
    {w : F} (hw : env.bplWeight (V "xmin") (V "xbreak") (V "xmax") (V "alpha") (V "beta") = .ok w)
    (h0 : env.num 0 ≤ w) (h1 : w ≤ env.num 1) (n : Nat) :
    auxTrue env .brokenPowerLaw n s = .ok ()
      { s with
        params := readMany env .brokenPowerLaw ["xmin", "xbreak", "xmax", "alpha", "beta"] s.params
        trueVals := some (List.zipWith (fun u (c : Bool) =>
          if c then env.bplPiece (V "xmin") (V "xbreak") (V "alpha") u
          else env.bplPiece (V "xbreak") (V "xmax") (V "beta") u)
          (drawMany env.uniform n s.rng).1
          (drawMany (env.bernoulli w) n (drawMany env.uniform n s.rng).2).1)
        rng := (drawMany (env.bernoulli w) n (drawMany env.uniform n s.rng).2).2 } := by
  show brokenPowerLawCode env n s = _
  unfold brokenPowerLawCode
  rw [bind_of_ok (x := sampleRng _) rfl,
    bind_of_ok (auxAttr_ok (by simpa using h) rfl), bind_of_ok (auxAttr_ok (by simpa using h) rfl),
    bind_of_ok (auxAttr_ok (by simpa using h) rfl), bind_of_ok (auxAttr_ok (by simpa using h) rfl),
    bind_of_ok (auxAttr_ok (by simpa using h) rfl), hw]
  rw [bind_of_ok (x := liftE _) (by exact rfl), if_pos ⟨h0, h1⟩]
  simp only [drawMany_length]
  rfl

end Popsynth
