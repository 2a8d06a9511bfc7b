import Verif.Lemmas.AuxSamplers
import Verif.Props.Sampler

/-!
# The built-in samplers (C62)
-/

set_option autoImplicit false
set_option linter.unusedSectionVars false

namespace Popsynth
open Spec
variable {F G : Type} [LE F] [DecidableLE F]
variable {env : AuxEnv F G} {k : AuxKind} {V : String → F} {v : SView F}

theorem asCode_of_ok {m : SView F → Nat → Py (CodeSt F G) Unit} {n : Nat} {g : G} {s : CodeSt F G}
    (h : m v n { params := v.params, trueVals := v.trueVals, obsVals := v.obsVals, rng := g } = .ok () s) :
    asCode m v n g = { trueVals := s.trueVals, obsVals := s.obsVals, params := s.params, rng := s.rng } := by
  unfold asCode; rw [h]

/-! ### True values -/

/-- **C62 (true values).** With usable values in force, `true_sampler(n)` returns, and the true
values are the results of following the recipe for one object `n` times; the observed values are
left alone. -/
theorem C62_true (hk : k ≠ .brokenPowerLaw) (hV : HasValues env k V v.params)
    (hu : Usable env V k) (n : Nat) (g : G) :
    ((auxCode env k).trueSampler v n g).err = none ∧
    ((auxCode env k).trueSampler v n g).trueVals = some (drawMany (recipe env V k) n g).1 ∧
    ((auxCode env k).trueSampler v n g).rng = (drawMany (recipe env V k) n g).2 ∧
    ((auxCode env k).trueSampler v n g).obsVals = v.obsVals := by
  obtain ⟨names, _, e⟩ := auxTrue_ok (s := ⟨v.params, v.trueVals, v.obsVals, g⟩) hk hV hu n
  have := asCode_of_ok (v := v) (n := n) (g := g) (m := fun _ n => auxTrue env k n) e
  simp only [auxCode, this, and_self]

/-- **C62 (true values of the broken power law).** All uniform numbers are drawn first, then the
same number of trials; object by object the trial chooses the piece. -/
theorem C62_true_broken (hV : HasValues env .brokenPowerLaw V v.params) {w : F}
    (hw : env.bplWeight (V "xmin") (V "xbreak") (V "xmax") (V "alpha") (V "beta") = .ok w)
    (h0 : env.num 0 ≤ w) (h1 : w ≤ env.num 1) (n : Nat) (g : G) :
    ∃ us cs, drawMany env.uniform n g = us ∧ drawMany (env.bernoulli w) n us.2 = cs ∧
    ((auxCode env .brokenPowerLaw).trueSampler v n g).err = none ∧
    ((auxCode env .brokenPowerLaw).trueSampler v n g).rng = cs.2 ∧
    ((auxCode env .brokenPowerLaw).trueSampler v n g).obsVals = v.obsVals ∧
    ∃ t, ((auxCode env .brokenPowerLaw).trueSampler v n g).trueVals = some t ∧ t.length = n ∧
      ∀ (i : Nat) (u : F) (c : Bool), us.1[i]? = some u → cs.1[i]? = some c →
        t[i]? = some (if c then env.bplPiece (V "xmin") (V "xbreak") (V "alpha") u
          else env.bplPiece (V "xbreak") (V "xmax") (V "beta") u) := by
  have e := bplTrue_ok (s := ⟨v.params, v.trueVals, v.obsVals, g⟩) hV hw h0 h1 n
  have := asCode_of_ok (v := v) (n := n) (g := g) (m := fun _ n => auxTrue env .brokenPowerLaw n) e
  refine ⟨_, _, rfl, rfl, ?_⟩
  simp only [auxCode, this]
  refine ⟨trivial, trivial, trivial, _, rfl, ?_, ?_⟩
  · simp [drawMany_length]
  · intro i u c hu hc
    rw [List.getElem?_zipWith, hu, hc]

/-- **C62 (lengths).** Following a recipe `n` times gives `n` values. -/
theorem C62_length (n : Nat) (g : G) : (drawMany (recipe env V k) n g).1.length = n :=
  drawMany_length _ _ _

/-! ### Parameters -/

/-- The parameter storage after sampler code, when nothing fails. -/
theorem trueSampler_params (hV : HasValues env k V v.params) (hu : Usable env V k) (n : Nat) (g : G) :
    ∃ names, (∀ name, Declared env k name → name ≠ "sigma" → name ∈ names) ∧
      ((auxCode env k).trueSampler v n g).params = readMany env k names v.params := by
  by_cases hk : k = .brokenPowerLaw
  · subst hk
    obtain ⟨w, hw, h0, h1⟩ := hu
    have e := bplTrue_ok (s := ⟨v.params, v.trueVals, v.obsVals, g⟩) hV hw h0 h1 n
    have := asCode_of_ok (v := v) (n := n) (g := g) (m := fun _ n => auxTrue env .brokenPowerLaw n) e
    refine ⟨["xmin", "xbreak", "xmax", "alpha", "beta"], ?_, by simp only [auxCode, this]⟩
    simp [Declared, auxDecl, Dict.keys]
  · obtain ⟨names, hn, e⟩ := auxTrue_ok (s := ⟨v.params, v.trueVals, v.obsVals, g⟩) hk hV hu n
    have := asCode_of_ok (v := v) (n := n) (g := g) (m := fun _ n => auxTrue env k n) e
    exact ⟨names, hn, by simp only [auxCode, this]⟩

/-- **C62 (the truth is recorded).** After drawing true values, the reported truth lists every
parameter the class declares, other than the measurement error, with the value that was used;
values already set are unchanged, and so is everything the class does not declare. -/
theorem C62_recorded (hV : HasValues env k V v.params) (hu : Usable env V k)
    (hn : (Dict.keys v.params.storage).Nodup) (n : Nat) (g : G) :
    (∀ name, Declared env k name → name ≠ "sigma" →
      Dict.get? (truthOf ((auxCode env k).trueSampler v n g).params) name = some (V name)) ∧
    (∀ name x, Dict.get? (truthOf v.params) name = some x →
      Dict.get? (truthOf ((auxCode env k).trueSampler v n g).params) name = some x) ∧
    (∀ name, ¬ Declared env k name →
      Dict.get? (truthOf ((auxCode env k).trueSampler v n g).params) name =
        Dict.get? (truthOf v.params) name) := by
  obtain ⟨names, hs, e⟩ := trueSampler_params hV hu n g
  rw [e]
  have hnd := readMany_nodup (env := env) (k := k) v.params names hn
  have get : ∀ name d, Dict.get? (auxDecl env k) name = some d →
      Dict.get? (truthOf (readMany env k names v.params)) name =
        if name ∈ names then inForce d name v.params else Dict.get? (truthOf v.params) name := by
    intro name d hd
    rw [truthOf_get? _ hnd, readMany_get _ _ _ hd, truthOf_get? _ hn]
    split <;> rfl
  refine ⟨?_, ?_, ?_⟩
  · intro name hd hne
    obtain ⟨d, hd'⟩ := Option.isSome_iff_exists.1 ((Dict.get?_isSome_iff _ _).2 hd)
    rw [get _ _ hd', if_pos (hs name hd hne)]
    exact hV _ _ hd'
  · intro name x hx
    cases hd : Dict.get? (auxDecl env k) name with
    | none =>
      rw [truthOf_get? _ hnd, readMany_undeclared _ _ _ hd, ← truthOf_get? _ hn]; exact hx
    | some d =>
      rw [get _ _ hd]
      split
      · rw [truthOf_get? _ hn] at hx
        rw [inForce_eq, hx]; rfl
      · exact hx
  · intro name hd
    have : Dict.get? (auxDecl env k) name = none := (Dict.get?_eq_none_iff _ _).2 hd
    rw [truthOf_get? _ hnd, readMany_undeclared _ _ _ this, ← truthOf_get? _ hn]

/-! ### Observed values -/

/-- The samplers that can be observed: they declare a measurement error. -/
def Spec.Observable (k : AuxKind) : Prop :=
  k ≠ .brokenPowerLaw ∧ k ≠ .viewingAngle ∧ k ≠ .ra ∧ k ≠ .dec

theorem Spec.Observable.sigma (hk : Observable k) :
    Dict.get? (auxDecl env k) "sigma" =
      some { default := some (env.num 1), vmin := some (env.num 0) } := by
  obtain ⟨h1, h2, h3, h4⟩ := hk
  cases k <;> first | contradiction | rfl

theorem auxObs_observed (hk : Observable k) {n : Nat} {g : G} {t : List F} {sg : F}
    (hobs : v.isObserved = true) (ht : v.trueVals = some t) (hl : t.length = n)
    (hs : inForce { default := some (env.num 1), vmin := some (env.num 0) } "sigma" v.params = some sg)
    (h0 : env.num 0 ≤ sg) :
    (auxCode env k).obsSampler v n g =
      { trueVals := some t
        obsVals := some (if env.eq sg (env.num 0) then t else
          List.zipWith (fun m z => env.add (env.mul z sg) m) t (drawMany env.normal n g).1)
        params := readSt env k v.params "sigma"
        rng := if env.eq sg (env.num 0) then g else (drawMany env.normal n g).2 } := by
  have e : auxObs env k v n { params := v.params, trueVals := v.trueVals, obsVals := v.obsVals, rng := g }
      = .ok () { params := readSt env k v.params "sigma"
                 trueVals := some t
                 obsVals := some (if env.eq sg (env.num 0) then t else
                    List.zipWith (fun m z => env.add (env.mul z sg) m) t (drawMany env.normal n g).1)
                 rng := if env.eq sg (env.num 0) then g else (drawMany env.normal n g).2 } := by
    have ha : auxAttr env k "sigma" { params := v.params, trueVals := v.trueVals, obsVals := v.obsVals, rng := g }
        = .ok sg { params := readSt env k v.params "sigma", trueVals := v.trueVals,
                   obsVals := v.obsVals, rng := g } := by
      rw [auxAttr_eq, hk.sigma]
      simp only [hs]
    obtain ⟨h1, h2, h3, h4⟩ := hk
    have key : noisyObs env k n { params := v.params, trueVals := v.trueVals, obsVals := v.obsVals, rng := g }
        = .ok () { params := readSt env k v.params "sigma"
                   trueVals := some t
                   obsVals := some (if env.eq sg (env.num 0) then t else
                      List.zipWith (fun m z => env.add (env.mul z sg) m) t (drawMany env.normal n g).1)
                   rng := if env.eq sg (env.num 0) then g else (drawMany env.normal n g).2 } := by
      unfold noisyObs
      rw [bind_of_ok ha, bind_apply, get_apply]
      simp only [ht]
      rw [bind_apply, normRvs_list hl h0]
      by_cases hz : env.eq sg (env.num 0) = true
      · simp only [hz, if_true]; rfl
      · simp only [hz]; rfl
    unfold auxObs
    rw [hobs]
    cases k <;> first | contradiction | exact key
  simp only [auxCode, asCode_of_ok (m := auxObs env k) e]

/-- **C62 (observed values).** For an observed property with measurement error `sigma`, each
observed value is the true value plus `sigma` times its own standard normal number; the true
values stay. -/
theorem C62_observed (hk : Observable k) {n : Nat} {g : G} {t : List F} {sg : F}
    (hobs : v.isObserved = true) (ht : v.trueVals = some t) (hl : t.length = n)
    (hs : inForce { default := some (env.num 1), vmin := some (env.num 0) } "sigma" v.params = some sg)
    (h0 : env.num 0 ≤ sg) (hne : env.eq sg (env.num 0) = false) :
    ((auxCode env k).obsSampler v n g).err = none ∧
    ((auxCode env k).obsSampler v n g).trueVals = some t ∧
    ∃ o, ((auxCode env k).obsSampler v n g).obsVals = some o ∧ o.length = n ∧
      ∀ (i : Nat) (x z : F), t[i]? = some x → (drawMany env.normal n g).1[i]? = some z →
        o[i]? = some (env.add (env.mul z sg) x) := by
  rw [auxObs_observed hk hobs ht hl hs h0]
  refine ⟨rfl, rfl, _, rfl, ?_, ?_⟩
  · simp [hne, hl, drawMany_length]
  · intro i x z hx hz
    simp only [hne, Bool.false_eq_true, if_false]
    rw [List.getElem?_zipWith, hx, hz]

/-- **C62 (no measurement error).** With `sigma = 0` the observed values are the true values and
no random numbers are used. -/
theorem C62_exact (hk : Observable k) {n : Nat} {g : G} {t : List F} {sg : F}
    (hobs : v.isObserved = true) (ht : v.trueVals = some t) (hl : t.length = n)
    (hs : inForce { default := some (env.num 1), vmin := some (env.num 0) } "sigma" v.params = some sg)
    (h0 : env.num 0 ≤ sg) (he : env.eq sg (env.num 0) = true) :
    ((auxCode env k).obsSampler v n g).err = none ∧
    ((auxCode env k).obsSampler v n g).obsVals = some t ∧
    ((auxCode env k).obsSampler v n g).trueVals = some t ∧
    ((auxCode env k).obsSampler v n g).rng = g := by
  rw [auxObs_observed hk hobs ht hl hs h0]
  simp [he]

/-- **C62 (the measurement error is recorded).** After observing, the truth lists `sigma`. -/
theorem C62_sigma_recorded (hk : Observable k) {n : Nat} {g : G} {t : List F} {sg : F}
    (hobs : v.isObserved = true) (ht : v.trueVals = some t) (hl : t.length = n)
    (hs : inForce { default := some (env.num 1), vmin := some (env.num 0) } "sigma" v.params = some sg)
    (h0 : env.num 0 ≤ sg) (hn : (Dict.keys v.params.storage).Nodup) :
    Dict.get? (truthOf ((auxCode env k).obsSampler v n g).params) "sigma" = some sg ∧
    ∀ name, name ≠ "sigma" →
      Dict.get? (truthOf ((auxCode env k).obsSampler v n g).params) name =
        Dict.get? (truthOf v.params) name := by
  rw [auxObs_observed hk hobs ht hl hs h0]
  constructor
  · rw [truthOf_get? _ (readSt_nodup _ _ hn), readSt_get, hk.sigma]
    simp only [if_true, hs]; rfl
  · intro name hne
    rw [truthOf_get? _ (readSt_nodup _ _ hn), readSt_get, hk.sigma, truthOf_get? _ hn]
    simp [Ne.symm hne]

/-- **C62 (latent properties).** For a property that is not observed nothing is read, no random
numbers are used, and the observed values are the true values (or untouched, for the classes that
are never observed). -/
theorem C62_unobserved (hobs : v.isObserved = false) (n : Nat) (g : G) :
    ((auxCode env k).obsSampler v n g).err = none ∧
    ((auxCode env k).obsSampler v n g).params = v.params ∧
    ((auxCode env k).obsSampler v n g).rng = g ∧
    ((auxCode env k).obsSampler v n g).trueVals = v.trueVals ∧
    (k ≠ .viewingAngle → k ≠ .ra → k ≠ .dec →
      ((auxCode env k).obsSampler v n g).obsVals = v.trueVals) := by
  cases k <;> simp [auxCode, asCode, auxObs, hobs]

/-! ### They work -/

/-- What has to hold of the parameters for sampler `k` to work: all values are there and usable,
and the measurement error is not negative. -/
def Spec.Works (env : AuxEnv F G) (k : AuxKind) (o : Obj F) : Prop :=
  ∃ V, HasValues env k V o ∧ Usable env V k ∧ (Observable k → env.num 0 ≤ V "sigma")

/-- **C62 (they work).** As long as the parameters are usable, a built-in sampler never fails and
returns `n` true values, `n` observed values and `n` probabilities, and the parameters stay
usable.  With `C12_draw_returns` this makes draws of any graph of built-in samplers return. -/
theorem C62_works (n : Nat) (observed : Bool) (hk : observed = true → Observable k)
    (U : SView F → Prop) : WellBehaved (auxCode env k) n observed (Works env k) U where
  trueOk := by
    rintro v g - ⟨V, hV, hu, hs⟩
    obtain ⟨names, _, ep⟩ := trueSampler_params hV hu n g
    have hw : Works env k ((auxCode env k).trueSampler v n g).params := by
      rw [ep]; exact ⟨V, readMany_hasValues names hV, hu, hs⟩
    by_cases hb : k = .brokenPowerLaw
    · subst hb
      obtain ⟨w, h1, h2, h3⟩ := hu
      obtain ⟨us, cs, _, _, e1, _, _, t, e2, e3, _⟩ := C62_true_broken hV h1 h2 h3 n g
      exact ⟨e1, hw, t, e2, e3⟩
    · obtain ⟨e1, e2, _, _⟩ := C62_true hb hV hu n g
      exact ⟨e1, hw, _, e2, C62_length n g⟩
  obsOk := by
    rintro ho v g l - hobs ⟨V, hV, hu, hs⟩ ht hl
    have hk := hk ho
    have e := auxObs_observed (env := env) (g := g) hk hobs ht hl (hV _ _ hk.sigma) (hs hk)
    rw [e]
    refine ⟨rfl, ⟨V, (hasValues_readSt _ _).2 hV, hu, hs⟩, ⟨l, rfl, hl⟩, _, rfl, ?_⟩
    split
    · exact hl
    · simp [hl, drawMany_length]
  probOk := by
    rintro v l - ⟨V, hV, hu, hs⟩ ht hl
    cases k with
    | viewingAngle =>
      have : outcome (paramGet { default := some (env.num 90) } "max_angle" v.params) =
          .ok (V "max_angle") := by
        rw [outcome_get]
        have := hV "max_angle" _ rfl
        rw [inForce_eq] at this ⊢
        rw [this]; rfl
      refine ⟨_, by simp only [auxCode, auxProb, this, ht]; rfl, ?_⟩
      intro q hq; cases hq; simpa using hl
    | _ => exact ⟨none, rfl, fun q hq => nomatch hq⟩

/-- **C62 (the defaults work).** A new sampler of these classes works without setting anything. -/
theorem C62_defaults (h00 : env.num 0 ≤ env.num 0) (h01 : env.num 0 ≤ env.num 1)
    (h10 : ¬ env.num 1 ≤ env.num 0)
    (hk : k = .normal ∨ k = .logNormal ∨ k = .log10Normal ∨ k = .delta ∨ k = .pareto ∨
      k = .powerLaw ∨ k = .viewingAngle ∨ k = .ra ∨ k = .dec) :
    Works env k {} := by
  refine ⟨fun name => (((Dict.get? (auxDecl env k) name).bind ParamDecl.default).getD (env.num 0)),
    ?_, ?_, ?_⟩
  · intro name d hd
    have hdef : d.default.isSome = true := by
      have := Dict.mem_of_get? hd
      rcases hk with rfl | rfl | rfl | rfl | rfl | rfl | rfl | rfl | rfl <;>
        simp [auxDecl] at this <;> aesop
    obtain ⟨x, hx⟩ := Option.isSome_iff_exists.1 hdef
    simp [inForce, Dict.get?, hd, hx]
  · rcases hk with rfl | rfl | rfl | rfl | rfl | rfl | rfl | rfl | rfl <;>
      simp [Usable, auxDecl, Dict.get?, h01, h10]
  · intro ho
    simp only [ho.sigma]
    exact h01

/-! ### Missing values -/

theorem auxAttr_ok_inForce {name : String} {s s' : CodeSt F G} {x : F}
    (h : auxAttr env k name s = .ok x s') :
    ∃ d, Dict.get? (auxDecl env k) name = some d ∧ inForce d name s.params = some x ∧
      s'.params = readSt env k s.params name := by
  rw [auxAttr_eq] at h
  cases hd : Dict.get? (auxDecl env k) name with
  | none => rw [hd] at h; cases h
  | some d =>
    rw [hd] at h
    simp only at h
    cases hi : inForce d name s.params with
    | none => rw [hi] at h; cases h
    | some y => rw [hi] at h; cases h; exact ⟨d, rfl, hi, rfl⟩

theorem inForce_of_attr {name : String} {s s' : CodeSt F G} {x : F} {d : ParamDecl F}
    (h : auxAttr env k name s = .ok x s') (hd : Dict.get? (auxDecl env k) name = some d) :
    ∃ y, inForce d name s.params = some y := by
  obtain ⟨d', hd', hi, _⟩ := auxAttr_ok_inForce h
  rw [hd] at hd'; cases hd'
  exact ⟨x, hi⟩

/-- Reading keeps the values in force. -/
theorem inForce_after_attr {name m : String} {s s' : CodeSt F G} {x : F} {d : ParamDecl F}
    (h : auxAttr env k name s = .ok x s') (hd : Dict.get? (auxDecl env k) m = some d) :
    inForce d m s'.params = inForce d m s.params := by
  obtain ⟨_, _, _, e⟩ := auxAttr_ok_inForce h
  rw [e]; exact readSt_inForce _ _ _ hd

theorem lowerLimit_inForce {s s' : CodeSt F G} {x : F} (h : lowerLimit env k s = .ok x s')
    {name : String} {d : ParamDecl F} (hd : Dict.get? (auxDecl env k) name = some d) :
    inForce d name s'.params = inForce d name s.params ∧
    (name = "lower" → ∃ y, inForce d name s.params = some y) := by
  obtain ⟨lo, s1, a1, h⟩ := (bind_ok_iff _ _ _ _ _).1 h
  have l1 : name = "lower" → ∃ y, inForce d name s.params = some y := by
    rintro rfl; exact inForce_of_attr a1 hd
  refine ⟨?_, l1⟩
  split at h
  · obtain ⟨_, s2, a2, h⟩ := (bind_ok_iff _ _ _ _ _).1 h
    obtain ⟨_, s3, a3, h⟩ := (bind_ok_iff _ _ _ _ _).1 h
    cases h
    rw [inForce_after_attr a3 hd, inForce_after_attr a2 hd, inForce_after_attr a1 hd]
  · obtain ⟨_, s2, a2, h⟩ := (bind_ok_iff _ _ _ _ _).1 h
    cases h
    rw [inForce_after_attr a2 hd, inForce_after_attr a1 hd]

theorem truncLog_missing {logUp power : F → F} {n : Nat} {s s' : CodeSt F G} {name : String}
    {d : ParamDecl F} (hn : name = "lower" ∨ name = "upper")
    (hd : Dict.get? (auxDecl env k) name = some d) (hmiss : inForce d name s.params = none)
    (h : truncLogCode env k logUp power n s = .ok () s') : False := by
  obtain ⟨a, s1, a1, h⟩ := (bind_ok_iff _ _ _ _ _).1 h
  obtain ⟨_, s2, a2, h⟩ := (bind_ok_iff _ _ _ _ _).1 h
  obtain ⟨e, hl⟩ := lowerLimit_inForce a1 hd
  rcases hn with rfl | rfl
  · obtain ⟨y, hy⟩ := hl rfl
    rw [hmiss] at hy; cases hy
  · obtain ⟨y, hy⟩ := inForce_of_attr a2 hd
    rw [e, hmiss] at hy; cases hy

/-- **C62 (missing values).** The truncated samplers and the broken power law have parameters
without a default; drawing without having set them fails. -/
theorem C62_missing {name : String} {d : ParamDecl F} (n : Nat) (g : G)
    (hd : Dict.get? (auxDecl env k) name = some d) (hs : name ≠ "sigma")
    (hmiss : inForce d name v.params = none) :
    ((auxCode env k).trueSampler v n g).err ≠ none := by
  have key : ∀ s', auxTrue env k n { params := v.params, trueVals := v.trueVals, obsVals := v.obsVals, rng := g }
      ≠ .ok () s' := by
    intro s' h
    have nodef : d.default = none := by
      rw [inForce_eq] at hmiss
      cases hx : d.default with
      | none => rfl
      | some x => rw [hx] at hmiss; cases (Dict.get? v.params.storage name).join <;> simp at hmiss
    have no : ∀ {s s' : CodeSt F G} {x : F}, auxAttr env k name s = .ok x s' →
        inForce d name s.params = none → False := by
      intro s s' x ha hi
      obtain ⟨y, hy⟩ := inForce_of_attr ha hd
      rw [hi] at hy; cases hy
    have mem := Dict.mem_of_get? hd
    cases k with
    | truncNormal =>
      have hn : name = "lower" ∨ name = "upper" := by
        simp [auxDecl] at mem; aesop
      obtain ⟨lo, s1, a1, h⟩ := (bind_ok_iff _ _ _ _ _).1 h
      obtain ⟨mu, s2, a2, h⟩ := (bind_ok_iff _ _ _ _ _).1 h
      obtain ⟨tau, s3, a3, h⟩ := (bind_ok_iff _ _ _ _ _).1 h
      obtain ⟨_, s4, a4, h⟩ := (bind_ok_iff _ _ _ _ _).1 h
      obtain ⟨_, s5, a5, h⟩ := (bind_ok_iff _ _ _ _ _).1 h
      obtain ⟨_, rfl⟩ := (liftE_ok_iff _ _ _ _).1 a4
      rcases hn with rfl | rfl
      · exact no a1 hmiss
      · refine no a5 ?_
        rw [inForce_after_attr a3 hd, inForce_after_attr a2 hd, inForce_after_attr a1 hd]
        exact hmiss
    | truncLogNormal =>
      have hn : name = "lower" ∨ name = "upper" := by
        simp [auxDecl] at mem; aesop
      exact truncLog_missing hn hd hmiss h
    | truncLog10Normal =>
      have hn : name = "lower" ∨ name = "upper" := by
        simp [auxDecl] at mem; aesop
      exact truncLog_missing hn hd hmiss h
    | brokenPowerLaw =>
      have hn : name = "xmin" ∨ name = "xbreak" ∨ name = "xmax" ∨ name = "alpha" ∨ name = "beta" := by
        simp [auxDecl] at mem; aesop
      obtain ⟨us, s0, a0, h⟩ := (bind_ok_iff _ _ _ _ _).1 h
      obtain ⟨_, s1, a1, h⟩ := (bind_ok_iff _ _ _ _ _).1 h
      obtain ⟨_, s2, a2, h⟩ := (bind_ok_iff _ _ _ _ _).1 h
      obtain ⟨_, s3, a3, h⟩ := (bind_ok_iff _ _ _ _ _).1 h
      obtain ⟨_, s4, a4, h⟩ := (bind_ok_iff _ _ _ _ _).1 h
      obtain ⟨_, s5, a5, h⟩ := (bind_ok_iff _ _ _ _ _).1 h
      have p0 : inForce d name s0.params = none := by
        unfold sampleRng at a0; cases a0; exact hmiss
      have p1 := (inForce_after_attr a1 hd).trans p0
      have p2 := (inForce_after_attr a2 hd).trans p1
      have p3 := (inForce_after_attr a3 hd).trans p2
      have p4 := (inForce_after_attr a4 hd).trans p3
      rcases hn with rfl | rfl | rfl | rfl | rfl
      · exact no a1 p0
      · exact no a2 p1
      · exact no a3 p2
      · exact no a4 p3
      · exact no a5 p4
    | _ => simp [auxDecl] at mem <;> aesop
  unfold auxCode asCode
  simp only
  cases h : auxTrue env k n { params := v.params, trueVals := v.trueVals, obsVals := v.obsVals, rng := g } with
  | ok u s' => exact absurd h (key s')
  | error e s' => simp

/-! ### Defaults, limits, what is never observed, and probabilities -/

/-- The documented default of a parameter of the given name, if there is one. -/
def Spec.docDefault : String → Option Nat
  | "mu" => some 0
  | "tau" => some 1
  | "sigma" => some 1
  | "xp" => some 0
  | "xmin" => some 1
  | "xmax" => some 2
  | "alpha" => some 1
  | "max_angle" => some 90
  | _ => none

/-- **C62 (defaults).** A parameter that was never set has its documented default – in every class
but the broken power law, none of whose parameters has one. -/
theorem C62_default_values {name : String} {d : ParamDecl F}
    (hd : Dict.get? (auxDecl env k) name = some d) (o : Obj F)
    (hn : Dict.get? o.storage name = none) :
    inForce d name o = if k = .brokenPowerLaw then none else (docDefault name).map env.num := by
  have mem := Dict.mem_of_get? hd
  unfold inForce
  rw [hn]
  cases k <;> simp [auxDecl] at mem <;>
    (try rcases mem with ⟨rfl, rfl⟩ | ⟨rfl, rfl⟩ | ⟨rfl, rfl⟩ | ⟨rfl, rfl⟩ | ⟨rfl, rfl⟩) <;>
    (try rcases mem with ⟨rfl, rfl⟩) <;> subst_vars <;> rfl

/-- The truncated samplers. -/
def Spec.Truncated (k : AuxKind) : Prop :=
  k = .truncNormal ∨ k = .truncLogNormal ∨ k = .truncLog10Normal

/-- **C62 (limits must be set).** A truncated sampler whose limits were not both set does not
draw. -/
theorem C62_limits_needed (hk : Truncated k) (n : Nat) (g : G)
    (hn : Dict.get? v.params.storage "lower" = none ∨ Dict.get? v.params.storage "upper" = none) :
    ((auxCode env k).trueSampler v n g).err ≠ none := by
  have hne : k ≠ .brokenPowerLaw := by rintro rfl; rcases hk with h | h | h <;> cases h
  have hdl : ∃ d, Dict.get? (auxDecl env k) "lower" = some d := by
    rcases hk with rfl | rfl | rfl <;> exact ⟨_, rfl⟩
  have hdu : ∃ d, Dict.get? (auxDecl env k) "upper" = some d := by
    rcases hk with rfl | rfl | rfl <;> exact ⟨_, rfl⟩
  rcases hn with hn | hn
  · obtain ⟨d, hd⟩ := hdl
    refine C62_missing n g hd (by decide) ?_
    rw [C62_default_values hd _ hn, if_neg hne]; rfl
  · obtain ⟨d, hd⟩ := hdu
    refine C62_missing n g hd (by decide) ?_
    rw [C62_default_values hd _ hn, if_neg hne]; rfl

/-- **C62 (limits are kept).** Whatever the numerical primitives return, a truncated sampler that
drew without an error has all its values between the limits in force. -/
theorem C62_within_limits (hk : Truncated k) (hV : HasValues env k V v.params) (n : Nat) (g : G)
    (he : ((auxCode env k).trueSampler v n g).err = none) :
    ∃ t, ((auxCode env k).trueSampler v n g).trueVals = some t ∧
      ∀ x ∈ t, V "lower" ≤ x ∧ x ≤ V "upper" := by
  have lim : ∀ (x : List F) (s s' : CodeSt F G), HasValues env k V s.params →
      (setTrue x >>= fun _ => assertLimits env k x) s = .ok () s' →
      s'.trueVals = some x ∧ ∀ z ∈ x, V "lower" ≤ z ∧ z ≤ V "upper" := by
    intro x s s' hs h
    obtain ⟨_, s1, a1, h⟩ := (bind_ok_iff _ _ _ _ _).1 h
    unfold setTrue at a1
    rw [modify_apply] at a1; cases a1
    obtain ⟨lo, s2, a2, h⟩ := (bind_ok_iff _ _ _ _ _).1 h
    have hl : (Dict.get? (auxDecl env k) "lower").isSome = true := by
      rcases hk with rfl | rfl | rfl <;> rfl
    have hu : (Dict.get? (auxDecl env k) "upper").isSome = true := by
      rcases hk with rfl | rfl | rfl <;> rfl
    rw [auxAttr_ok (by exact hs) hl] at a2; cases a2
    obtain ⟨_, s3, a3, h⟩ := (bind_ok_iff _ _ _ _ _).1 h
    obtain ⟨h3, rfl⟩ := (pyAssert_ok_iff _ _ _ _).1 a3
    obtain ⟨up, s4, a4, h⟩ := (bind_ok_iff _ _ _ _ _).1 h
    rw [auxAttr_ok (by exact (hasValues_readSt _ _).2 hs) hu] at a4; cases a4
    obtain ⟨h5, rfl⟩ := (pyAssert_ok_iff _ _ _ _).1 h
    refine ⟨rfl, fun z hz => ?_⟩
    rw [List.all_eq_true] at h3 h5
    exact ⟨of_decide_eq_true (h3 z hz), of_decide_eq_true (h5 z hz)⟩
  have attr : ∀ {s s' : CodeSt F G} {name : String} {x : F}, HasValues env k V s.params →
      auxAttr env k name s = .ok x s' → HasValues env k V s'.params := by
    intro s s' name x hs ha
    obtain ⟨_, _, _, e⟩ := auxAttr_ok_inForce ha
    rw [e]; exact (hasValues_readSt _ _).2 hs
  have rvs : ∀ {a b loc scale : F} {s s' : CodeSt F G} {x : List F},
      truncnormRvs env a b loc scale n s = .ok x s' → s'.params = s.params := by
    intro a b loc scale s s' x h
    unfold truncnormRvs at h
    split at h
    · split at h
      · cases h; rfl
      · obtain ⟨_, s1, a1, h⟩ := (bind_ok_iff _ _ _ _ _).1 h
        unfold sampleRng at a1; cases a1; cases h; rfl
    · cases h
  have tlog : ∀ (logUp power : F → F) (s s' : CodeSt F G), HasValues env k V s.params →
      truncLogCode env k logUp power n s = .ok () s' →
      ∃ t, s'.trueVals = some t ∧ ∀ x ∈ t, V "lower" ≤ x ∧ x ≤ V "upper" := by
    intro logUp power s s' hs h
    obtain ⟨a, s1, a1, h⟩ := (bind_ok_iff _ _ _ _ _).1 h
    have h1 : HasValues env k V s1.params := by
      obtain ⟨lo, s0, b0, a1⟩ := (bind_ok_iff _ _ _ _ _).1 a1
      split at a1
      · obtain ⟨_, s2, b1, a1⟩ := (bind_ok_iff _ _ _ _ _).1 a1
        obtain ⟨_, s3, b2, a1⟩ := (bind_ok_iff _ _ _ _ _).1 a1
        cases a1
        exact attr (attr (attr hs b0) b1) b2
      · obtain ⟨_, s2, b1, a1⟩ := (bind_ok_iff _ _ _ _ _).1 a1
        cases a1
        exact attr (attr hs b0) b1
    obtain ⟨_, s2, a2, h⟩ := (bind_ok_iff _ _ _ _ _).1 h
    obtain ⟨_, s3, a3, h⟩ := (bind_ok_iff _ _ _ _ _).1 h
    obtain ⟨_, s4, a4, h⟩ := (bind_ok_iff _ _ _ _ _).1 h
    obtain ⟨_, s5, a5, h⟩ := (bind_ok_iff _ _ _ _ _).1 h
    obtain ⟨_, s6, a6, h⟩ := (bind_ok_iff _ _ _ _ _).1 h
    obtain ⟨_, s7, a7, h⟩ := (bind_ok_iff _ _ _ _ _).1 h
    obtain ⟨_, s8, a8, h⟩ := (bind_ok_iff _ _ _ _ _).1 h
    obtain ⟨_, s9, a9, h⟩ := (bind_ok_iff _ _ _ _ _).1 h
    have h9 : HasValues env k V s9.params := by
      rw [rvs a9]
      exact attr (attr (attr (attr (attr (attr (attr h1 a2) a3) a4) a5) a6) a7) a8
    exact ⟨_, lim _ _ _ h9 h⟩
  have tnorm : k = .truncNormal → ∀ (s s' : CodeSt F G), HasValues env k V s.params →
      truncNormalCode env n s = .ok () s' →
      ∃ t, s'.trueVals = some t ∧ ∀ x ∈ t, V "lower" ≤ x ∧ x ≤ V "upper" := by
    rintro rfl s s' hs h
    obtain ⟨_, s1, a1, h⟩ := (bind_ok_iff _ _ _ _ _).1 h
    obtain ⟨_, s2, a2, h⟩ := (bind_ok_iff _ _ _ _ _).1 h
    obtain ⟨_, s3, a3, h⟩ := (bind_ok_iff _ _ _ _ _).1 h
    obtain ⟨_, s4, a4, h⟩ := (bind_ok_iff _ _ _ _ _).1 h
    obtain ⟨_, rfl⟩ := (liftE_ok_iff _ _ _ _).1 a4
    obtain ⟨_, s5, a5, h⟩ := (bind_ok_iff _ _ _ _ _).1 h
    obtain ⟨_, s6, a6, h⟩ := (bind_ok_iff _ _ _ _ _).1 h
    obtain ⟨_, s7, a7, h⟩ := (bind_ok_iff _ _ _ _ _).1 h
    obtain ⟨_, s8, a8, h⟩ := (bind_ok_iff _ _ _ _ _).1 h
    obtain ⟨_, rfl⟩ := (liftE_ok_iff _ _ _ _).1 a8
    obtain ⟨_, s9, a9, h⟩ := (bind_ok_iff _ _ _ _ _).1 h
    obtain ⟨_, s10, a10, h⟩ := (bind_ok_iff _ _ _ _ _).1 h
    obtain ⟨_, s11, a11, h⟩ := (bind_ok_iff _ _ _ _ _).1 h
    have h11 : HasValues env .truncNormal V s11.params := by
      rw [rvs a11]
      exact attr (attr (attr (attr (attr (attr (attr (attr hs a1) a2) a3) a5) a6) a7) a9) a10
    exact ⟨_, lim _ _ _ h11 h⟩
  unfold auxCode asCode at he ⊢
  simp only at he ⊢
  cases h : auxTrue env k n { params := v.params, trueVals := v.trueVals, obsVals := v.obsVals, rng := g } with
  | error e s' => rw [h] at he; simp at he
  | ok u s' =>
    simp only
    rcases hk with rfl | rfl | rfl
    · exact tnorm rfl _ _ hV h
    · exact tlog _ _ _ _ hV h
    · exact tlog _ _ _ _ hV h

/-- **C62 (limits in the wrong order).** If the limits do not increase, a truncated normal sampler
raises `ValueError` and keeps the values it had. -/
theorem C62_limits_ordered (hV : HasValues env .truncNormal V v.params) {a b : F}
    (ha : env.pyDiv (env.sub (V "lower") (V "mu")) (V "tau") = .ok a)
    (hb : env.pyDiv (env.sub (V "upper") (V "mu")) (V "tau") = .ok b)
    (hab : env.lt a b = false) (n : Nat) (g : G) :
    ((auxCode env .truncNormal).trueSampler v n g).err = some .value ∧
    ((auxCode env .truncNormal).trueSampler v n g).trueVals = v.trueVals ∧
    ((auxCode env .truncNormal).trueSampler v n g).rng = g := by
  have step : ∀ (name : String) (s : CodeSt F G), HasValues env .truncNormal V s.params →
      (Dict.get? (auxDecl env .truncNormal) name).isSome = true →
      ∃ s', auxAttr env .truncNormal name s = .ok (V name) s' ∧
        HasValues env .truncNormal V s'.params ∧ s'.trueVals = s.trueVals ∧ s'.rng = s.rng :=
    fun name s h hn => ⟨_, auxAttr_ok h hn, (hasValues_readSt _ _).2 h, rfl, rfl⟩
  let s0 : CodeSt F G := ⟨v.params, v.trueVals, v.obsVals, g⟩
  obtain ⟨s1, a1, h1, t1, r1⟩ := step "lower" s0 hV rfl
  obtain ⟨s2, a2, h2, t2, r2⟩ := step "mu" s1 h1 rfl
  obtain ⟨s3, a3, h3, t3, r3⟩ := step "tau" s2 h2 rfl
  obtain ⟨s4, a4, h4, t4, r4⟩ := step "upper" s3 h3 rfl
  obtain ⟨s5, a5, h5, t5, r5⟩ := step "mu" s4 h4 rfl
  obtain ⟨s6, a6, h6, t6, r6⟩ := step "tau" s5 h5 rfl
  obtain ⟨s7, a7, h7, t7, r7⟩ := step "mu" s6 h6 rfl
  obtain ⟨s8, a8, h8, t8, r8⟩ := step "tau" s7 h7 rfl
  have hl : ∀ (c : F) (s : CodeSt F G), (liftE (.ok c : Except Err F) : Py (CodeSt F G) F) s = .ok c s :=
    fun _ _ => rfl
  have key : auxTrue env .truncNormal n s0 = .error .value s8 := by
    show truncNormalCode env n s0 = _
    unfold truncNormalCode
    rw [bind_of_ok a1, bind_of_ok a2, bind_of_ok a3, ha, bind_of_ok (hl a s3), bind_of_ok a4,
      bind_of_ok a5, bind_of_ok a6, hb, bind_of_ok (hl b s6), bind_of_ok a7, bind_of_ok a8]
    simp [truncnormRvs, hab, raise, bind_apply]
  unfold auxCode asCode
  simp only
  rw [show auxTrue env .truncNormal n ⟨v.params, v.trueVals, v.obsVals, g⟩ = _ from key]
  exact ⟨rfl, by simp [*, s0], by simp [*, s0]⟩

/-- Never observed, whatever the flags. -/
def Spec.Hidden (k : AuxKind) : Prop := k = .viewingAngle ∨ k = .ra ∨ k = .dec

/-- **C62 (never observed).** Viewing angles and sky positions are created unobserved, under fixed
names; all other samplers under the name and with the flag given.  The observation method of the
hidden ones uses no random numbers and changes nothing. -/
theorem C62_hidden (name : String) (observed : Bool) (q : Nat) (n : Nat) (g : G) :
    ((auxNew k name observed q : Sampler F).isObserved = true ↔ ¬ Hidden k ∧ observed = true) ∧
    (auxNew k name observed q : Sampler F).name =
      (if k = .viewingAngle then "va" else if k = .ra then "ra" else if k = .dec then "dec"
        else name) ∧
    (auxNew k name observed q : Sampler F).selector = q ∧
    (auxNew k name observed q : Sampler F).secondaries = [] ∧
    (auxNew k name observed q : Sampler F).usesLuminosity = false ∧
    (auxNew k name observed q : Sampler F).usesDistance = false ∧
    (Hidden k → (auxCode env k).obsSampler v n g =
      { trueVals := v.trueVals, obsVals := v.obsVals, params := v.params, rng := g }) := by
  refine ⟨?_, ?_, ?_, ?_, ?_, ?_, ?_⟩
  · cases k <;> simp [auxNew, newSampler, Hidden]
  · cases k <;> simp [auxNew, newSampler]
  · cases k <;> rfl
  · cases k <;> rfl
  · cases k <;> rfl
  · cases k <;> rfl
  · rintro (rfl | rfl | rfl) <;> rfl

/-- **C62 (probabilities).** Only viewing angles come with a probability: the sine of the angle
divided by one minus the cosine of the largest angle, for each value. -/
theorem C62_probability (hV : HasValues env k V v.params) {t : List F} (ht : v.trueVals = some t) :
    (auxCode env k).prob v = .ok (if k = .viewingAngle then
      some (t.map fun x => env.div (env.sin x) (env.sub (env.num 1) (env.cosDeg (V "max_angle"))))
      else none) := by
  by_cases hk : k = .viewingAngle
  · subst hk
    have h := hV "max_angle" _ rfl
    have hi : inForce ({ default := some (env.num 90) } : ParamDecl F) "max_angle" v.params =
        some (V "max_angle") := by
      rw [inForce_eq] at h ⊢; exact h
    have ho := outcome_get ({ default := some (env.num 90) } : ParamDecl F) "max_angle" v.params
    rw [hi] at ho
    simp only at ho
    simp only [auxCode, auxProb, ht, if_true]
    rw [ho]
    rfl
  · rw [if_neg hk]
    cases k <;> first | exact absurd rfl hk | rfl

/-! ### The broken power law cannot be observed -/

theorem brokenPowerLaw_obs (hobs : v.isObserved = true) (n : Nat) (g : G) :
    (auxCode env .brokenPowerLaw).obsSampler v n g =
      { err := some .attribute, trueVals := v.trueVals, obsVals := v.obsVals, params := v.params, rng := g } := by
  have ha : ∀ s : CodeSt F G, auxAttr env .brokenPowerLaw "sigma" s = .error .attribute s :=
    fun s => by rw [auxAttr_eq]; rfl
  simp only [auxCode, asCode, auxObs, hobs, if_true]
  unfold noisyObs
  rw [bind_of_error (ha _)]

section
variable [OfNat F 0] [OfNat F 1]

/-- The last part of a draw. -/
theorem samplerDraw_finish {w : World F G} {n k i : Nat} {h h' : Heap F G}
    (hs : (h.samplers i).isSampled = false) (hk : samplerDraw w k i n h = .ok () h') :
    ∃ h2, (∀ j, (h2.samplers j).static = (h.samplers j).static) ∧
      finishDraw w i n h2 = .ok () h' := by
  cases k with
  | zero => simp [samplerDraw] at hk
  | succ k =>
    rw [samplerDraw, bind_apply, get_apply] at hk
    simp only [hs, Bool.false_eq_true, if_false] at hk
    obtain ⟨_, h1, e1, hk⟩ := (bind_ok_iff _ _ _ _ _).1 hk
    obtain ⟨_, h2, e2, e3⟩ := (bind_ok_iff _ _ _ _ _).1 hk
    have hs1 : h1.samplers = h.samplers := by
      have := giveSelector_samplers i h
      rw [e1] at this; exact this
    refine ⟨h2, ?_, e3⟩
    refine forEach_ok_induct (fun t => ∀ j, (t.samplers j).static = (h.samplers j).static)
      (fun j => by rw [hs1]) ?_ e2
    intro p _ t1 t2 ht e j
    obtain ⟨_, tm, ep, ed⟩ := (bind_ok_iff _ _ _ _ _).1 e
    have f1 := samplerDraw_fr w n k p.2 tm
    rw [ed] at f1
    rw [show (t2.samplers j).static = _ from f1.static j]
    rw [← ht j]
    unfold prepSecondary at ep
    split at ep
    · split at ep
      · cases ep
      · simp only [setSpatialValues, modify_apply] at ep
        cases ep
        rw [modSampler_samplers]
        split <;> rfl
    · cases ep

/-- **C62 is violated** by the broken power law: it is observed by default, but the class
declares no measurement error, so drawing an observed one never succeeds, whatever its parameters
are. -/
theorem C62_violated_broken_power_law (w : World F G) (fuel i n : Nat) (h h' : Heap F G)
    (hc : w.code i = auxCode env .brokenPowerLaw) (ho : (h.samplers i).isObserved = true)
    (hs : (h.samplers i).isSampled = false) :
    samplerDraw w fuel i n h ≠ .ok () h' := by
  intro hk
  obtain ⟨h2, st, hf⟩ := samplerDraw_finish hs hk
  have ho2 : (h2.samplers i).isObserved = true := by rw [static_isObserved (st i)]; exact ho
  unfold finishDraw at hf
  obtain ⟨_, h3, e3, hf⟩ := (bind_ok_iff _ _ _ _ _).1 hf
  rw [modify_apply] at e3; cases e3
  obtain ⟨_, h4, e4, hf⟩ := (bind_ok_iff _ _ _ _ _).1 hf
  obtain ⟨_, h5, e5, hf⟩ := (bind_ok_iff _ _ _ _ _).1 hf
  have ho4 : (h4.samplers i).isObserved = true := by
    obtain ⟨_, _, _, _, rfl⟩ := runCode_ok e4
    simpa using ho2
  unfold observe runCode at e5
  rw [ho4, hc] at e5
  have := brokenPowerLaw_obs (env := env) (v := h4.view i) ho4 n h4.rng
  simp only [if_true, this] at e5
  cases e5

end

/-! ### Examples -/

/-- Arithmetic on integers with a counter as random generator. -/
def AuxExample.counting : AuxEnv Int Nat where
  num := fun n => n
  normal := fun g => (g, g + 1)
  uniform := fun g => (g, g + 1)
  numbaUniform := fun g => (g, g + 1)
  truncStd := fun a _ g => (a, g + 1)
  pareto := fun _ g => (g, g + 1)
  bernoulli := fun _ g => (g % 2 == 0, g + 1)
  add := (· + ·)
  sub := (· - ·)
  mul := (· * ·)
  div := (· / ·)
  pyDiv := fun a b => if b = 0 then .error .value else .ok (a / b)
  eq := fun a b => a == b
  lt := fun a b => decide (a < b)
  exp := fun x => 2 * x
  exp10 := fun x => 10 * x
  log := fun x => x / 2
  log10 := fun x => x / 10
  arccos := id
  sin := id
  cosDeg := id
  pi := 3
  ppfLow := fun m t => m - 4 * t
  plaw := fun a b _ u => a + (b - a) * u
  bplWeight := fun _ _ _ _ _ => .ok 1
  bplPiece := fun a b _ u => a + (b - a) * u

/-- A sampler of its own with the given parameter storage. -/
def AuxExample.view (st : Dict (Option Int)) (tv : Option (List Int)) : SView Int where
  params := { storage := st }
  isObserved := true
  luminosity := none
  spatial := none
  trueVals := tv
  obsVals := none
  secs := []

/-- A normal sampler with `mu = 5` set and the other parameters at their defaults, drawn and
observed. -/
example :
    let v := AuxExample.view [("mu", some 5)] (some [7, 8])
    ((auxCode AuxExample.counting .normal).trueSampler v 2 10).trueVals = some [15, 16] ∧
    ((auxCode AuxExample.counting .normal).trueSampler v 2 10).params.storage =
      [("mu", some 5), ("tau", some 1)] ∧
    ((auxCode AuxExample.counting .normal).obsSampler v 2 10).obsVals = some [17, 19] ∧
    HasValues AuxExample.counting .normal (fun n => if n = "mu" then 5 else 1) v.params := by
  refine ⟨by decide, by decide, by decide, ?_⟩
  intro name d hd
  have := Dict.mem_of_get? hd
  simp [auxDecl] at this
  rcases this with ⟨rfl, rfl⟩ | ⟨rfl, rfl⟩ | ⟨rfl, rfl⟩ <;> rfl

/-- The broken power law without its limits, with them, and observed. -/
example :
    let v := AuxExample.view [] none
    let v' := AuxExample.view [("xmin", some 1), ("xbreak", some 2),
      ("xmax", some 4), ("alpha", some 1), ("beta", some 1)] none
    ((auxCode AuxExample.counting .brokenPowerLaw).trueSampler v 2 0).err = some .assertion ∧
    ((auxCode AuxExample.counting .brokenPowerLaw).trueSampler v' 3 0).trueVals = some [2, 2, 6] ∧
    ((auxCode AuxExample.counting .brokenPowerLaw).obsSampler v' 2 0).err = some .attribute := by
  decide

/-- A truncated normal sampler with good limits, with limits in the wrong order, and without. -/
example :
    let v := AuxExample.view [("lower", some 3), ("upper", some 9)] (some [7])
    let v' := AuxExample.view [("lower", some 9), ("upper", some 3)] (some [7])
    ((auxCode AuxExample.counting .truncNormal).trueSampler v 2 0).err = none ∧
    ((auxCode AuxExample.counting .truncNormal).trueSampler v' 2 0).err = some .value ∧
    ((auxCode AuxExample.counting .truncNormal).trueSampler v' 2 0).trueVals = some [7] ∧
    ((auxCode AuxExample.counting .truncNormal).trueSampler (AuxExample.view [] none) 2 0).err =
      some .assertion ∧
    Truncated .truncNormal ∧ Hidden .ra ∧ ¬ Hidden .delta := by
  refine ⟨by decide, by decide, by decide, by decide, .inl rfl, .inr (.inl rfl), ?_⟩
  rintro (h | h | h) <;> cases h

/-- **C62 (names).**  A sampler made with a name stores its observed values under that name followed
by `_obs`, which is never the name of the true values; two samplers with different names have
different names for both. -/
theorem C62_names (name name' cls cls' : String) (o o' d d' l l' : Bool) (q q' : Nat) :
    (newSampler (F := F) name cls o d l q).name = name ∧
    (newSampler (F := F) name cls o d l q).obsName.toList = name.toList ++ ['_', 'o', 'b', 's'] ∧
    (newSampler (F := F) name cls o d l q).obsName ≠ (newSampler (F := F) name cls o d l q).name ∧
    (name ≠ name' → (newSampler (F := F) name cls o d l q).obsName ≠
      (newSampler (F := F) name' cls' o' d' l' q').obsName) := by
  have e : ∀ n : String, (n ++ "_obs").toList = n.toList ++ ['_', 'o', 'b', 's'] := by
    intro n; rw [String.toList_append]; rfl
  refine ⟨rfl, e name, ?_, ?_⟩
  · intro h
    have h := congrArg String.toList h
    rw [newSampler, e] at h
    simpa using congrArg List.length h
  · intro hn h
    have h := congrArg String.toList h
    simp only [newSampler, e, List.append_cancel_right_eq] at h
    exact hn (String.toList_injective h)

example : (newSampler (F := Int) "flux" "NormalAuxSampler" true false false 3).obsName = "flux_obs" := by
  decide

end Popsynth
