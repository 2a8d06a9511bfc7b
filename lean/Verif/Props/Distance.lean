import Verif.Lemmas.Distance
import Mathlib.Data.Rat.Init
import Mathlib.Algebra.Order.Ring.Rat
import Mathlib.Order.Lattice

/-!
# Drawing distances: C27, C45 (control flow), C46

Analytic parts of C28 and C45 are in `Verif/Props/DistanceReal.lean`.
-/

set_option autoImplicit false
set_option linter.unusedSectionVars false

namespace Popsynth
variable {F G : Type}

namespace DistanceExample

/-- A concrete environment over `ℚ`: uniforms come from a list of fractions, the
integrator is the trapezoidal rule, the grid has three points. -/
def env : DistEnv ℚ (List ℚ) where
  uniform h g := match g with
    | u :: rest => (.ok (u * h), rest)
    | [] => (.ok 0, [])
  quad h := .query 0 fun a => .query h fun b => .done (h / 2 * (a + b))
  grid h := [0, h / 2, h]
  npMax l := l.foldl max 0
  div a b := a / b
  lt a b := decide (a < b)
  thetaOf u := u
  twoPi := 6
  ten := 10
  budget := 4

/-- Density `Lambda * r`, `Lambda` flagged as normalization with default one. -/
def cls : SpClass ℚ where
  decl n := if n = "r_max" then declRMax env
    else if n = "Lambda" then { default := some 1, vmin := some 0, isNorm := true } else {}
  reads := ["Lambda"]
  dens vs r := match vs with
    | [l] => l * r
    | _ => 0

/-- Density `Lambda * r + delta`; `delta` has no default. -/
def cls2 : SpClass ℚ where
  decl := cls.decl
  reads := ["Lambda", "delta"]
  dens vs r := match vs with
    | [l, d] => l * r + d
    | _ => 0

/-- Like `cls`, but the normalization parameter has no default (as in
`SFRDistribution`). -/
def cls3 : SpClass ℚ where
  decl n := if n = "r_max" then declRMax env
    else if n = "r0" then { vmin := some 0, isNorm := true } else {}
  reads := ["r0"]
  dens vs r := match vs with
    | [l] => l * r
    | _ => 0

/-- The user has set `Lambda = 2`; the rest is untouched. -/
def start : SpSt ℚ (List ℚ) where
  sp := { params := { storage := [("Lambda", some 2)], norm := some "Lambda" } }
  rng := [3/4, 1/10, 1/8, 1/2, 0, 1/3, 0, 1/5]

end DistanceExample

open DistanceExample

section
variable [OfNat F 0] [OfNat F 1]

/-- C27 (part): if `draw_distance` returns, every parameter reads exactly as before,
for every class whose density reads parameters and computes from them, any adaptive
quadrature rule, any random stream, with or without normalization and progress bar.
At most one parameter may be flagged as normalization, and only flagged parameters
are recorded as such on the object (true for all objects, `C27_norm_recorded`).

Missing for the full C27: `draw_distance(normalize=True)` does not always return,
and then may leave the normalization at one, see `C27_violated_untouched_default`
and `C27_violated_exception_leaves_one`. -/
theorem C27_parameters_kept_partial (env : DistEnv F G) (c : SpClass F)
    (hrm : c.decl "r_max" = declRMax env)
    (huniq : ∀ a b, (c.decl a).isNorm = true → (c.decl b).isNorm = true → a = b)
    (showProgress normalize : Bool) (size : Nat) (s s' : SpSt F G)
    (hok : ∀ n, s.sp.params.norm = some n → (c.decl n).isNorm = true)
    (h : drawDistance env c.code showProgress size normalize s = .ok () s') (n : String) :
    outcome (paramGet (c.decl n) n s'.sp.params) = outcome (paramGet (c.decl n) n s.sp.params) := by
  rw [outcome_paramGet_rd, outcome_paramGet_rd,
    (drawDistance_rel env c hrm huniq showProgress normalize size hok h).same n]

example : ∃ s', drawDistance env cls.code true 2 true start = .ok () s' ∧
    s'.sp.distances = some [5, 10/3] ∧
    outcome (paramGet (cls.decl "Lambda") "Lambda" s'.sp.params) = .ok 2 := by
  refine ⟨_, ok_of_isOk (by decide +kernel), ?_, ?_⟩ <;> decide +kernel

/-- Every object, after any history of assignments and reads, has recorded only
flagged parameters as its normalization parameter. -/
theorem C27_norm_recorded [LE F] [DecidableLE F] (decl : String → ParamDecl F) (ops : List (POp F))
    (i : Nat) (n : String)
    (h : ((runOps decl (ClassState.init decl) ops).objs i).norm = some n) :
    (decl n).isNorm = true := by
  have key : ∀ (o : Obj F), NormOk decl o → ∀ m, NormOk decl (touchNorm (decl m) m o) := by
    intro o ho m k hk
    unfold touchNorm at hk
    split at hk
    · rename_i hm; simp at hk; subst hk; exact hm
    · exact ho k hk
  have : ∀ (ops : List (POp F)) (st : ClassState F), (∀ i, NormOk decl (st.objs i)) →
      ∀ i, NormOk decl ((runOps decl st ops).objs i) := by
    intro ops
    induction ops with
    | nil => intro st h; exact h
    | cons op rest ih =>
      intro st hst
      refine ih (stepOp decl st op) fun j => ?_
      cases op with
      | assign k m v =>
        simp only [stepOp, ClassState.setObj]
        split
        · classical
          by_cases hb : st.free m = true ∧ Spec.InBounds (decl m) v
          · rw [paramSet_accept _ _ _ _ _ hb.1 hb.2]; exact key _ (hst k) m
          · obtain ⟨e, _, he⟩ := paramSet_reject (decl m) (st.free m) m v (st.objs k) hb
            rw [he]; exact key _ (hst k) m
        · exact hst j
      | read k m =>
        simp only [stepOp, ClassState.setObj]
        split
        · exact (paramGet_rel decl m (st.objs k)).normOk (hst k)
        · exact hst j
      | setFree m b => exact hst j
  exact this ops _ (fun i k hk => by simp [ClassState.init] at hk) i n h

/-- C27 for the computation of the expected count in `draw_survey`: readings are
kept if the normalization parameter has a stored value. -/
theorem C27_count_keeps_parameters_partial (env : DistEnv F G) (c : SpClass F)
    (hrm : c.decl "r_max" = declRMax env)
    (huniq : ∀ a b, (c.decl a).isNorm = true → (c.decl b).isNorm = true → a = b)
    (normalize : Bool) (o o' : Obj F) (N : F)
    (hok : ∀ n, o.norm = some n → (c.decl n).isNorm = true)
    (hval : ∀ n, o.norm = some n → o.storage.get? n ≠ some none)
    (h : expectedCount env c.code normalize o = .ok N o') (n : String) :
    outcome (paramGet (c.decl n) n o') = outcome (paramGet (c.decl n) n o) := by
  have hrel : RdRel c.decl o o' := by
    unfold expectedCount at h
    split at h
    · simp only [bind_ok_iff] at h
      obtain ⟨old, o1, h1, rm, o2, h2, i, o3, h3, u, o4, h4, rm', o5, h5, h6⟩ := h
      have k2 := readRMax_keeps env hrm o1
      rw [h2] at k2
      have k3 := quad_keeps RdRel.refl (fun _ _ _ => RdRel.trans) (env.quad rm) (c.at_keeps) o2
      rw [h3] at k3
      have k5 := readRMax_keeps env hrm o4
      rw [h5] at k5
      have k6 := quad_keeps RdRel.refl (fun _ _ _ => RdRel.trans) (env.quad rm')
        (normAt_keeps env c (some i)) o5
      rw [h6] at k6
      have k4 : RdRel c.decl o o4 := by
        rcases pushNorm_ok h1 with ⟨hn, rfl, rfl⟩ | ⟨m, v, hn, hg, rfl, rfl⟩
        · simp only [restoreNorm, pure_apply] at h4; cases h4; exact k2.trans k3
        · cases v with
          | none => exact absurd hg (hval m hn)
          | some v =>
            refine (bracket (old := none) (old' := some (some v)) huniq hok (by simp) ?_ (k2.trans k3) ?_).1
            · unfold pushNorm getNorm setNorm; simp [hn, hg]
            · have hs := (k2.trans k3).some (by rw [show _ = some m from hn]; rfl)
              obtain ⟨m', hm'⟩ := Option.isSome_iff_exists.1 hs
              simp only [endState] at hm'
              show popNorm (some (some v)) o3 = _
              unfold popNorm; rw [hm']; exact h4
      exact k4.trans (k5.trans k6)
    · simp only [bind_ok_iff] at h
      obtain ⟨rm, o2, h2, h3⟩ := h
      have k2 := readRMax_keeps env hrm o
      rw [h2] at k2
      have k3 := quad_keeps RdRel.refl (fun _ _ _ => RdRel.trans) (env.quad rm) (c.at_keeps) o2
      rw [h3] at k3
      exact k2.trans k3
  rw [outcome_paramGet_rd, outcome_paramGet_rd, hrel.same n]

example : isOk (expectedCount env cls.code true start.sp.params) = true := by decide +kernel

end

/-- C27 violated: `draw_distance(normalize=True)` on a distribution whose
normalization parameter was neither set nor read raises `UnboundLocalError`
(`old_value` is assigned only if the parameter was already known, but used if it is
known after the integration). -/
theorem C27_violated_untouched_default (showProgress : Bool) (size : Nat) (g : List ℚ) :
    ∃ s', drawDistance env cls.code showProgress size true { sp := {}, rng := g }
      = .error .unboundLocal s' := by
  have h : outcome (normBlock env cls.code true {}) = .error .unboundLocal := by decide +kernel
  have h' : outcome (onParams (G := List ℚ) (normBlock env cls.code true) { sp := {}, rng := g })
      = .error .unboundLocal := by
    unfold onParams
    rw [show normBlock env cls.code true ({ sp := {}, rng := g } : SpSt ℚ (List ℚ)).sp.params = _
      from error_of_outcome h]
    rfl
  exact ⟨_, bind_of_error (error_of_outcome h')⟩

/-- C27 violated: if the density raises during the normalization (here because the
user forgot a parameter without default), the normalization parameter stays at one:
the user set 2, afterwards it reads 1. -/
theorem C27_violated_exception_leaves_one (showProgress : Bool) (size : Nat) (g : List ℚ) :
    ∃ s', drawDistance env cls2.code showProgress size true
        { sp := { params := start.sp.params }, rng := g } = .error .assertion s' ∧
      outcome (paramGet (cls2.decl "Lambda") "Lambda" start.sp.params) = .ok 2 ∧
      outcome (paramGet (cls2.decl "Lambda") "Lambda" s'.sp.params) = .ok 1 := by
  have h := error_of_outcome (r := normBlock env cls2.code true start.sp.params) (e := .assertion)
    (by decide +kernel)
  have h' : onParams (G := List ℚ) (normBlock env cls2.code true)
      { sp := { params := start.sp.params }, rng := g } =
      .error .assertion { sp := { params := endState (normBlock env cls2.code true start.sp.params) },
                          rng := g } := by
    simp only [onParams]; rw [h]; rfl
  refine ⟨_, bind_of_error h', by decide +kernel, ?_⟩
  show outcome (paramGet (cls2.decl "Lambda") "Lambda"
    (endState (normBlock env cls2.code true start.sp.params))) = _
  decide +kernel

/-- C27 violated: looking at an unset normalization parameter without default raises
`AssertionError`, but makes the next normalized count silently use one for it *and*
leave it at one. -/
theorem C27_violated_unset_becomes_one :
    let o := endState (paramGet (cls3.decl "r0") "r0" {})
    outcome (paramGet (cls3.decl "r0") "r0" {}) = .error .assertion ∧
    outcome (paramGet (cls3.decl "r0") "r0" o) = .error .assertion ∧
    outcome (expectedCount env cls3.code true o) = .ok 1 ∧
    outcome (paramGet (cls3.decl "r0") "r0" (endState (expectedCount env cls3.code true o))) = .ok 1 ∧
    outcome (expectedCount env cls3.code true {}) = .error .assertion := by
  decide +kernel

/-! ### C46 -/

section
variable [OfNat F 0] [OfNat F 1]

/-- C46 (part): without `normalize`, switching the progress bar on or off changes
nothing at all: same outcome, same distances, same final state, for every density
code (user-written or built-in) that leaves a stored `r_max` alone.

Missing for the full C46: with `normalize=True` the two paths differ, see
`C46_violated_normalized`. -/
theorem C46_progress_irrelevant_partial (env : DistEnv F G) (code : DensityCode F)
    (hat : ∀ r o rm, o.storage.get? "r_max" = some (some rm) →
      (endState (code.at' r o)).storage.get? "r_max" = some (some rm))
    (harr : ∀ rs o rm, o.storage.get? "r_max" = some (some rm) →
      (endState (code.onArr rs o)).storage.get? "r_max" = some (some rm))
    (size : Nat) (s : SpSt F G) :
    drawDistance env code true size false s = drawDistance env code false size false s :=
  drawDistance_paths env code (fun r o rm h => hat r o rm h) (fun rs o rm h => harr rs o rm h) size s

/-- All classes of the modelled form qualify. -/
theorem C46_progress_irrelevant_classes_partial (env : DistEnv F G) (c : SpClass F) (size : Nat)
    (s : SpSt F G) :
    drawDistance env c.code true size false s = drawDistance env c.code false size false s :=
  drawDistance_paths env c.code c.at_keepsRM c.onArr_keepsRM size s

end

example : ∃ s', drawDistance env cls.code true 2 false start = .ok () s' ∧
    s'.sp.distances = some [5, 10/3] := by
  refine ⟨_, ok_of_isOk (by decide +kernel), by decide +kernel⟩

/-- C46 violated: with `normalize=True` and the same random stream the progress bar
changes the distances: without it `rejection_sample` gets the unnormalized density
but the maximum of the normalized one. -/
theorem C46_violated_normalized : ∃ s1 s2,
    drawDistance env cls.code true 2 true start = .ok () s1 ∧
    drawDistance env cls.code false 2 true start = .ok () s2 ∧
    s1.sp.distances = some [5, 10/3] ∧ s2.sp.distances = some [1, 5] := by
  refine ⟨_, _, ok_of_isOk (by decide +kernel), ok_of_isOk (by decide +kernel), ?_, ?_⟩ <;>
    decide +kernel

end Popsynth
