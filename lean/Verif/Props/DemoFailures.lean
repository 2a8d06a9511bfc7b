import Verif.Props.LawFamilyDemo

/-!
# When the samplers of the test suite fail (C84)
-/

set_option autoImplicit false

namespace Popsynth
variable {F G : Type}

/-- **C84** (`DemoSampler` is not observed): its observation changes nothing. -/
theorem C84_demo_unobserved (env : AuxEnv F G) (v : SView F) (n : ℕ) (g : G) :
    (demoCode env).obsSampler v n g = { trueVals := v.trueVals, obsVals := v.obsVals, params := v.params, rng := g } :=
  rfl

/-- **C84** (without the secondary): a `KeyError`, before any number is drawn. -/
theorem C84_demo2_no_secondary (env : AuxEnv F G) (v : SView F) (n : ℕ) (s : CodeSt F G)
    (h : v.secs.get? "demo" = none) :
    demo2True env v n s = .error .key s ∧ demo2Luminosity env v = .error .key := by
  have k : demoSecondary v = .error .key := by unfold demoSecondary; rw [h]
  constructor
  · unfold demo2True
    rw [k]
    rfl
  · unfold demo2Luminosity
    rw [k]
    rfl

/-- Reading the two parameters and drawing, as `DemoSampler2` does first. -/
theorem demo2_draws {H : Type} [MeasurableSpace H] {env : AuxEnv ℝ H} {V : String → ℝ} (hx : Spec.ExactAux env) {s : CodeSt ℝ H}
    (hV : Spec.InForceAll (demo2Decl env) V s.params) (ht : 0 ≤ V "tau") (n : ℕ) :
    ∃ o zs g', zs.length = n ∧ drawMany env.normal n s.rng = (zs, g') ∧ ∀ {β : Type} (k : List ℝ → Py (CodeSt ℝ H) β),
      (do
        let mu ← declAttr (demo2Decl env) "mu"
        let tau ← declAttr (demo2Decl env) "tau"
        let x ← npNormal env mu tau n
        k x : Py (CodeSt ℝ H) β) s =
      k (zs.map fun z => V "mu" + V "tau" * z) { s with params := o, rng := g' } := by
  obtain ⟨o1, a1, b1⟩ := declAttr_of (name := "mu") hV rfl
  obtain ⟨o2, a2, b2⟩ := declAttr_of (name := "tau") (s := { s with params := o1 }) b1 rfl
  obtain ⟨zs, g', hz⟩ : ∃ zs g', drawMany env.normal n s.rng = (zs, g') := ⟨_, _, rfl⟩
  have hl : zs.length = n := by
    have := drawMany_length env.normal n s.rng
    rw [hz] at this; exact this
  obtain rfl := hl
  have a3 := npNormal_of (mu := V "mu") (s := { s with params := o2 }) hx ht (z := zs.get) (g' := g') (by
    show drawMany env.normal zs.length s.rng = _
    rw [hz, List.ofFn_get])
  refine ⟨o2, zs, g', rfl, hz, fun k => ?_⟩
  rw [bind_of_ok a1, bind_of_ok a2, bind_of_ok a3]
  congr 1
  show List.ofFn ((fun z => V "mu" + V "tau" * z) ∘ zs.get) = _
  rw [← List.map_ofFn, List.ofFn_get]

variable [MeasurableSpace G] {env : AuxEnv ℝ G} {V : String → ℝ} {v : SView ℝ} {n : ℕ} {s : CodeSt ℝ G}

/-- **C84** (values of the secondary): when they are not drawn yet, a `TypeError`; when there are
more or fewer of them than objects (and not one, which counts for all), a `ValueError`. -/
theorem C84_demo2_secondary (hx : Spec.ExactAux env) (hV : Spec.InForceAll (demo2Decl env) V s.params)
    (ht : 0 ≤ V "tau") {t : Option (List ℝ)} {o : Option (List ℝ)} (h : v.secs.get? "demo" = some (t, o)) :
    (t = none → ∃ s', demo2True env v n s = .error .type s') ∧
    (∀ l, t = some l → l.length ≠ n → n ≠ 1 → l.length ≠ 1 → ∃ s', demo2True env v n s = .error .value s') := by
  have k : demoSecondary v = .ok (t, o) := by unfold demoSecondary; rw [h]
  obtain ⟨p, zs, g', hl, -, hk⟩ := demo2_draws hx hV ht n
  constructor
  · rintro rfl
    unfold demo2True
    rw [bind_of_ok (liftE_of_ok _ k), hk]
    exact ⟨_, rfl⟩
  · rintro l rfl hne - -
    unfold demo2True
    rw [bind_of_ok (liftE_of_ok _ k), hk]
    have e1 : operand (some l) = .ok l := rfl
    rw [bind_of_ok (liftE_of_ok _ e1)]
    have e2 : elementwise env.add (zs.map fun z => V "mu" + V "tau" * z) l = .error .value := by
      unfold elementwise
      rw [if_neg (by simpa [hl] using fun e => hne e.symm)]
    rw [e2]
    exact ⟨_, rfl⟩

/-- **C84** (positions): without them an `AttributeError`; with more or fewer of them than objects
a `ValueError`. -/
theorem C84_demo2_positions (hx : Spec.ExactAux env) (hV : Spec.InForceAll (demo2Decl env) V s.params)
    (ht : 0 ≤ V "tau") {t : List ℝ} {o : Option (List ℝ)} (h : v.secs.get? "demo" = some (some t, o))
    (hn : t.length = n) :
    (v.spatial = none → ∃ s', demo2True env v n s = .error .attribute s') ∧
    (∀ x, v.spatial = some x → x.distance.length ≠ n → n ≠ 1 → x.distance.length ≠ 1 →
      ∃ s', demo2True env v n s = .error .value s') := by
  have k : demoSecondary v = .ok (some t, o) := by unfold demoSecondary; rw [h]
  obtain ⟨p, zs, g', hl, -, hk⟩ := demo2_draws hx hV ht n
  have e1 : operand (some t) = .ok t := rfl
  have e2 : elementwise env.add (zs.map fun z => V "mu" + V "tau" * z) t =
      .ok (List.zipWith env.add (zs.map fun z => V "mu" + V "tau" * z) t) := by
    unfold elementwise
    rw [if_pos (by simp [hl, hn])]
  have e : demo2True env v n s = (do
      let r ← liftE (demoDistance v)
      let z ← liftE (elementwise env.sub (List.zipWith env.add (zs.map fun z => V "mu" + V "tau" * z) t)
        (r.map fun d => env.log10 (env.add (env.num 1) d)))
      setTrue z : Py (CodeSt ℝ G) Unit) { s with params := p, rng := g' } := by
    unfold demo2True
    rw [bind_of_ok (liftE_of_ok _ k), hk, bind_of_ok (liftE_of_ok _ e1), bind_of_ok (liftE_of_ok _ e2)]
  constructor
  · intro hs
    have : demoDistance v = .error .attribute := by unfold demoDistance; rw [hs]
    rw [e, this]
    exact ⟨_, rfl⟩
  · intro x hs hne _ _
    have e3 : demoDistance v = .ok x.distance := by unfold demoDistance; rw [hs]
    have e4 : elementwise env.sub (List.zipWith env.add (zs.map fun z => V "mu" + V "tau" * z) t)
        (x.distance.map fun d => env.log10 (env.add (env.num 1) d)) = .error .value := by
      unfold elementwise
      rw [if_neg (by simpa [hl, hn] using fun e => hne e.symm)]
    rw [e, bind_of_ok (liftE_of_ok _ e3), e4]
    exact ⟨_, rfl⟩

/-- **C84** (luminosities before the values are drawn): a `TypeError`. -/
theorem C84_demo2_dark {u : Option (List ℝ) × Option (List ℝ)} (h : v.secs.get? "demo" = some u)
    (hn : v.trueVals = none ∨ u.1 = none) : demo2Luminosity env v = .error .type := by
  have k : demoSecondary v = .ok u := by unfold demoSecondary; rw [h]
  unfold demo2Luminosity
  rw [k]
  obtain ⟨u1, u2⟩ := u
  rcases hn with hn | hn
  · rw [hn]; rfl
  · cases hn
    cases v.trueVals <;> rfl

/-- **C84** (widths): setting a negative width is refused, in both samplers, and the stored values stay. -/
theorem C84_demo_widths (hx : Spec.ExactAux env) (d : ParamDecl ℝ) (name : String) (x : ℝ) (hneg : x < 0) (o : Obj ℝ)
    (hd : name = "tau" ∧ (demoDecl env).get? name = some d ∨
      (name = "tau" ∨ name = "sigma") ∧ (demo2Decl env).get? name = some d) :
    ∃ o', paramSet d true name (some x) o = .error .runtime o' ∧ o'.storage = o.storage := by
  have hm : d.vmin = some 0 := by
    rcases hd with ⟨rfl, h⟩ | ⟨rfl | rfl, h⟩ <;>
    · simp [demoDecl, demo2Decl, Dict.get?] at h
      rw [← h]; simp [hx.num]
  have hb : ¬ Spec.InBounds d (some x) := by
    simp [Spec.InBounds, hm, hneg]
  obtain ⟨e, he, h⟩ := paramSet_reject d true name (some x) o fun h => hb h.2
  rcases he with rfl | ⟨-, he⟩
  · exact ⟨_, h, by unfold touchNorm; split <;> rfl⟩
  · cases he

/-- A width of `-1` is refused by `DemoSampler2.sigma`. -/
example (hx : Spec.ExactAux env) (o : Obj ℝ) :
    ∃ o', paramSet { default := some (env.num 1), vmin := some (env.num 0) } true "sigma" (some (-1)) o =
      .error .runtime o' ∧ o'.storage = o.storage :=
  C84_demo_widths hx _ "sigma" (-1) (by norm_num) o (.inr ⟨.inr rfl, rfl⟩)

/-- Three objects and two values of the secondary. -/
example (hx : Spec.ExactAux env) (hV : Spec.InForceAll (demo2Decl env) (fun _ => 2) s.params)
    (h : v.secs.get? "demo" = some (some [1, 2], none)) : ∃ s', demo2True env v 3 s = .error .value s' :=
  (C84_demo2_secondary hx hV (by norm_num) h).2 _ rfl (by simp) (by simp) (by simp)

end Popsynth
