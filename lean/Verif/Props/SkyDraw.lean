import Verif.Model.Distance
import Verif.Props.Sky
import Verif.Lemmas.Py

/-!
# Sky positions as they are drawn (C52)

`Verif.Props.Sky` is about one position as a function of two numbers; here are the
positions that `draw_sky_positions` leaves in the distribution.
-/

set_option autoImplicit false
set_option linter.unusedSectionVars false

namespace Popsynth

namespace Spec
variable {F G : Type}

/-- `vs` are successive uniform numbers below `hi`, drawn from random state `g`, after
which the random state is `g'`. -/
inductive Uniforms (env : DistEnv F G) (hi : F) : G → List F → G → Prop where
  | nil (g : G) : Uniforms env hi g [] g
  | cons {g g1 g' : G} {v : F} {vs : List F} (h : env.uniform hi g = (.ok v, g1))
      (t : Uniforms env hi g1 vs g') : Uniforms env hi g (v :: vs) g'

/-- Some draw fails: `k` numbers can be drawn, the next raises `e`. -/
def UniformsFail (env : DistEnv F G) (hi : F) (g : G) (k : Nat) (e : Err) (g' : G) : Prop :=
  ∃ vs g1, Uniforms env hi g vs g1 ∧ vs.length = k ∧ env.uniform hi g1 = (.error e, g')

end Spec

open Spec

section
variable {F G : Type}

theorem skyUniform_ok {env : DistEnv F G} {hi : F} {s s' : SpSt F G} {v : F}
    (h : drawUniform env hi s = .ok v s') :
    ∃ g, env.uniform hi s.rng = (.ok v, g) ∧ s' = { s with rng := g } := by
  unfold drawUniform at h
  split at h
  · next hu => cases h; exact ⟨_, hu, rfl⟩
  · cases h

theorem uniformMany_ok (env : DistEnv F G) (hi : F) :
    ∀ (n : Nat) (s s' : SpSt F G) (vs : List F), uniformMany env hi n s = .ok vs s' →
      vs.length = n ∧ s'.sp = s.sp ∧ Uniforms env hi s.rng vs s'.rng
  | 0, s, s', vs, h => by
    cases h
    exact ⟨rfl, rfl, .nil _⟩
  | n + 1, s, s', vs, h => by
    rw [uniformMany, bind_ok_iff] at h
    obtain ⟨v, s1, h1, h⟩ := h
    rw [bind_ok_iff] at h
    obtain ⟨us, s2, h2, h⟩ := h
    cases h
    obtain ⟨g, hu, rfl⟩ := skyUniform_ok h1
    obtain ⟨l, e, t⟩ := uniformMany_ok env hi n _ _ _ h2
    exact ⟨by simp [l], e, .cons hu t⟩

theorem uniformMany_of (env : DistEnv F G) (hi : F) {g g' : G} {vs : List F}
    (h : Uniforms env hi g vs g') (sp : Spat F) :
    uniformMany env hi vs.length ⟨sp, g⟩ = .ok vs ⟨sp, g'⟩ := by
  induction h with
  | nil g => rfl
  | cons h t ih =>
    rw [List.length_cons, uniformMany, bind_of_ok (a := _) (s1 := ⟨sp, _⟩), bind_of_ok ih]
    · rfl
    · simp [drawUniform, h]

variable [OfNat F 1]

/-- **C52 (what is drawn).** `draw_sky_positions(size)` draws `size` numbers below one, then
`size` numbers below `2 pi`; the polar angles are computed from the former, the azimuths are
the latter, object by object, and nothing else of the distribution changes.  If all these
draws succeed then so does the method. -/
theorem C52_drawn (env : DistEnv F G) (size : Nat) (s s' : SpSt F G) :
    drawSky env size s = .ok () s' ↔
      ∃ us ps g, us.length = size ∧ ps.length = size ∧ Uniforms env 1 s.rng us g ∧
        Uniforms env env.twoPi g ps s'.rng ∧
        s'.sp = { s.sp with theta := some (us.map env.thetaOf), phi := some ps } := by
  constructor
  · intro h
    rw [drawSky, bind_ok_iff] at h
    obtain ⟨us, s1, h1, h⟩ := h
    rw [bind_ok_iff] at h
    obtain ⟨ps, s2, h2, h⟩ := h
    obtain ⟨l1, e1, u1⟩ := uniformMany_ok _ _ _ _ _ _ h1
    obtain ⟨l2, e2, u2⟩ := uniformMany_ok _ _ _ _ _ _ h2
    cases h
    exact ⟨us, ps, s1.rng, l1, l2, u1, u2, by simp only [e2, e1]⟩
  · rintro ⟨us, ps, g, l1, l2, u1, u2, e⟩
    obtain ⟨sp, r⟩ := s
    obtain ⟨sp', r'⟩ := s'
    simp only at e u1 u2
    subst e
    have k1 := uniformMany_of env 1 u1 sp
    have k2 := uniformMany_of env env.twoPi u2 sp
    rw [l1] at k1
    rw [l2] at k2
    rw [drawSky, bind_of_ok k1, bind_of_ok k2]
    rfl

/-- **C52 (failure).** If a draw fails the error is passed on and the distribution keeps the
positions it had. -/
theorem C52_drawn_error (env : DistEnv F G) (size : Nat) (s s' : SpSt F G) (e : Err)
    (h : drawSky env size s = .error e s') :
    s'.sp = s.sp ∧ ∃ k, k < size ∧
      (UniformsFail env 1 s.rng k e s'.rng ∨
        ∃ us g, us.length = size ∧ Uniforms env 1 s.rng us g ∧
          UniformsFail env env.twoPi g k e s'.rng) := by
  have key : ∀ (hi : F) (n : Nat) (s s' : SpSt F G) (e : Err),
      uniformMany env hi n s = .error e s' →
      s'.sp = s.sp ∧ ∃ k, k < n ∧ UniformsFail env hi s.rng k e s'.rng := by
    intro hi n
    induction n with
    | zero => intro s s' e h; cases h
    | succ n ih =>
      intro s s' e h
      rw [uniformMany, bind_apply] at h
      cases hu : env.uniform hi s.rng with
      | mk r g =>
        cases r with
        | error e1 =>
          simp only [drawUniform, hu] at h
          cases h
          exact ⟨rfl, 0, by omega, [], s.rng, .nil _, rfl, hu⟩
        | ok v =>
          simp only [drawUniform, hu, bind_apply] at h
          cases h2 : uniformMany env hi n { s with rng := g } with
          | ok a t => rw [h2] at h; cases h
          | error e2 t =>
            rw [h2] at h
            cases h
            obtain ⟨hs, k, hk, vs, g1, hv, hl, hf⟩ := ih _ _ _ h2
            exact ⟨hs, k + 1, by omega, v :: vs, g1, .cons hu hv, by simp [hl], hf⟩
  rw [drawSky, bind_apply] at h
  cases h1 : uniformMany env 1 size s with
  | error e1 t =>
    rw [h1] at h; cases h
    obtain ⟨a, k, hk, b⟩ := key _ _ _ _ _ h1
    exact ⟨a, k, hk, .inl b⟩
  | ok us t =>
    rw [h1] at h
    simp only [bind_apply] at h
    obtain ⟨l, e1, u1⟩ := uniformMany_ok _ _ _ _ _ _ h1
    cases h2 : uniformMany env env.twoPi size t with
    | ok a t => rw [h2] at h; cases h
    | error e2 t2 =>
      rw [h2] at h; cases h
      obtain ⟨a, k, hk, b⟩ := key _ _ _ _ _ h2
      exact ⟨a.trans e1, k, hk, .inr ⟨us, t.rng, l, u1, b⟩⟩

end

noncomputable section

/-- The numpy functions behind sky positions over the reals: a uniform number below `hi` is
`hi` times the next number of a stream with values in [0, 1). -/
structure Spec.SkyEnv {G : Type} (env : DistEnv ℝ G) (next : G → ℝ × G) : Prop where
  unit : ∀ g, (next g).1 ∈ Set.Ico (0 : ℝ) 1
  uniform : ∀ hi g, env.uniform hi g = (.ok (npUniform 0 hi (next g).1), (next g).2)
  theta : ∀ u, env.thetaOf u = Real.arccos (1 - 2 * u)
  twoPi : env.twoPi = 2 * Real.pi

/-- The first `n` numbers of a stream and the state after them. -/
def Spec.taken {G : Type} (next : G → ℝ × G) : Nat → G → List ℝ × G
  | 0, g => ([], g)
  | n + 1, g => ((next g).1 :: (Spec.taken next n (next g).2).1, (Spec.taken next n (next g).2).2)

theorem uniforms_taken {G : Type} {env : DistEnv ℝ G} {next : G → ℝ × G} (he : SkyEnv env next)
    (hi : ℝ) (n : Nat) (g : G) :
    Uniforms env hi g ((taken next n g).1.map (npUniform 0 hi)) (taken next n g).2 := by
  induction n generalizing g with
  | zero => exact .nil _
  | succ n ih => exact .cons (he.uniform hi g) (ih _)

theorem taken_length {G : Type} (next : G → ℝ × G) (n : Nat) (g : G) :
    (taken next n g).1.length = n := by
  induction n generalizing g with
  | zero => rfl
  | succ n ih => simp [taken, ih]

theorem taken_unit {G : Type} {next : G → ℝ × G} (h : ∀ g, (next g).1 ∈ Set.Ico (0 : ℝ) 1)
    (n : Nat) (g : G) : ∀ u ∈ (taken next n g).1, u ∈ Set.Ico (0 : ℝ) 1 := by
  induction n generalizing g with
  | zero => simp [taken]
  | succ n ih => simpa [taken] using ⟨h g, ih _⟩

/-- **C52 (sky of a survey).** Over the reals `draw_sky_positions(size)` succeeds and the
position of object `k` is the one that `sample_theta_phi` computes from the `k`-th number of
the first `size` and the `k`-th of the next `size` numbers of the random stream; theta lies
in [0, pi] and phi in [0, 2 pi). -/
theorem C52_drawn_positions {G : Type} (env : DistEnv ℝ G) (next : G → ℝ × G)
    (he : SkyEnv env next) (size : Nat) (s : SpSt ℝ G) :
    ∃ s' thetas phis, drawSky env size s = .ok () s' ∧ s'.sp.theta = some thetas ∧
      s'.sp.phi = some phis ∧ thetas.length = size ∧ phis.length = size ∧
      s'.sp.distances = s.sp.distances ∧
      ∀ k, k < size → ∃ u v t p, (taken next size s.rng).1[k]? = some u ∧
        (taken next size (taken next size s.rng).2).1[k]? = some v ∧
        thetas[k]? = some t ∧ phis[k]? = some p ∧ sampleThetaPhi u v = some (t, p) ∧
        t ∈ Set.Icc 0 Real.pi ∧ p ∈ Set.Ico 0 (2 * Real.pi) := by
  let us := (taken next size s.rng).1
  let g := (taken next size s.rng).2
  let vs := (taken next size g).1
  have l1 : us.length = size := taken_length _ _ _
  have l2 : vs.length = size := taken_length _ _ _
  refine ⟨⟨{ s.sp with theta := some ((us.map (npUniform 0 1)).map env.thetaOf),
                       phi := some (vs.map (npUniform 0 env.twoPi)) }, (taken next size g).2⟩,
    _, _, ?_, rfl, rfl, by simp [l1], by simp [l2], rfl, ?_⟩
  · rw [C52_drawn]
    exact ⟨us.map (npUniform 0 1), vs.map (npUniform 0 env.twoPi), g, by simp [l1], by simp [l2],
      uniforms_taken he 1 size s.rng, uniforms_taken he env.twoPi size g, rfl⟩
  · intro k hk
    have h1 : k < us.length := by omega
    have h2 : k < vs.length := by omega
    have hu : us[k] ∈ Set.Ico (0 : ℝ) 1 := taken_unit he.unit size s.rng _ (List.getElem_mem h1)
    have hv : vs[k] ∈ Set.Ico (0 : ℝ) 1 := taken_unit he.unit size g _ (List.getElem_mem h2)
    obtain ⟨t, p, e, ht, hp, -⟩ := C52_range hu hv
    have e' := sampleThetaPhi_eq hu vs[k]
    rw [e'] at e
    cases e
    refine ⟨us[k], vs[k], _, _, List.getElem?_eq_getElem h1, List.getElem?_eq_getElem h2, ?_, ?_,
      e', ht, hp⟩
    · simp [List.getElem?_eq_getElem h1, he.theta, npUniform]
    · simp [List.getElem?_eq_getElem h2, he.twoPi, npUniform]

/-- The hypotheses can be met: a random state that counts, with numbers 1 / (n + 2). -/
example : ∃ (env : DistEnv ℝ Nat) (next : Nat → ℝ × Nat), SkyEnv env next := by
  refine ⟨{ uniform := fun hi g => (.ok (npUniform 0 hi (1 / ((g : ℝ) + 2))), g + 1)
            quad := fun _ => .done 0, grid := fun _ => [], npMax := fun _ => 0
            div := fun a b => a / b, lt := fun _ _ => false
            thetaOf := fun u => Real.arccos (1 - 2 * u), twoPi := 2 * Real.pi, ten := 10
            budget := 1 }, fun g => (1 / ((g : ℝ) + 2), g + 1), ?_, fun _ _ => rfl, fun _ => rfl, rfl⟩
  intro g
  have : (0 : ℝ) ≤ g := Nat.cast_nonneg g
  constructor
  · positivity
  · rw [div_lt_one (by linarith)]; linarith

end

/-- Two objects from a random state that counts: first the numbers for theta (0, 1), then those
for phi (2, 3). -/
example :
    let env : DistEnv Int Int :=
      { uniform := fun hi g => (.ok (hi * 10 + g), g + 1), quad := fun _ => .done 0
        grid := fun _ => [], npMax := fun _ => 0, div := fun a _ => a, lt := fun _ _ => false
        thetaOf := fun u => 100 + u, twoPi := 6, ten := 10, budget := 1 }
    let s' := endState (drawSky env 2 ⟨{ distances := some [5, 6] }, 0⟩)
    s'.sp.theta = some [110, 111] ∧ s'.sp.phi = some [62, 63] ∧ s'.rng = 4 ∧
      s'.sp.distances = some [5, 6] := by decide +kernel

end Popsynth
