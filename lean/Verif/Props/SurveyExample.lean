import Verif.Lemmas.SurveyHeap
import Verif.Props.Sampler

/-!
# A small survey used for the non-vacuity checks of `Verif/Props/Survey*.lean`
-/

set_option autoImplicit false

namespace Popsynth.SurveyExample
open Spec

/-- Distances 1, 2, …, each of probability 1. -/
def spatial : SpatialCode Nat Nat :=
  { count := fun _ => pure 3
    drawDistance := fun n _ => modify fun s =>
      { sp := { s.sp with distances := some ((List.range n).map (· + 1)),
                          probability := some (List.replicate n 1) }, rng := s.rng + 1 }
    drawSky := fun n => modify fun s =>
      { sp := { s.sp with theta := some (List.replicate n 0), phi := some (List.replicate n 1) },
        rng := s.rng + 1 }
    transform := fun l d => .ok (List.zipWith (· * ·) l d)
    galB := fun t _ => t
    readRMax := pure 10 }

/-- Luminosities 2, 3, …, each of density 2. -/
def lum : LumCode Nat Nat :=
  { draw := fun n => pure ((List.range n).map (· + 2))
    phi := fun l => pure (l.map fun _ => 2) }

/-- Numbers are natural numbers, the random state is a counter. -/
def env : SurveyEnv Nat Nat :=
  { world := SamplerExample.w, spatial, lum
    seed := fun k _ => if k < 0 then .error .value else .ok k.toNat
    poisson := fun N g => (.ok N, g + 1)
    normal := fun _ g => (g % 3, g + 1)
    validScale := fun _ => true
    mul := (· * ·), add := (· + ·), log10 := id, pow10 := id, ln := id, exp := id
    isFinite := fun _ => true, minusOne := 999, frames := 10
    toDict := fun _ _ => .ok .none }

/-- The diamond of `SamplerExample`; sampler 2 (`"c"`) has a hard selection on its
observed value, selector 10 is a hard flux selection at 4, selector 11 a distance
selection that knows everything. -/
def heap : Heap Nat Nat :=
  { SamplerExample.heap with
    samplers := fun j => { SamplerExample.heap.samplers j with spatial := none, luminosity := none }
    selectors := fun q => match q with
      | 2 => { kind := .lower, cls := "LowerBound",
               params := { storage := [("boundary", some 100)] }, data := { useObs := true } }
      | 10 => { kind := .lower, cls := "HardFluxSelection",
                params := { storage := [("boundary", some 4)] }, data := { useFlux := true } }
      | _ => { kind := .unity } }

def st : SurvSt Nat Nat := { heap, sp := {}, lum := {}, graph := {} }

def synth : Synth Nat :=
  { name := "synth", seed := 42, spatialName := "space", lumName := some "lum",
    aux := [("a", 0)], fluxSel := 10, distSel := 11 }

def args : SurveyArgs Nat := {}

/-- State after the survey. -/
def final : SurvSt Nat Nat := endState (drawSurvey env synth args st)

theorem survey_ok : ∃ P, drawSurvey env synth args st = .ok P final :=
  exists_ok_of_isOk (by decide +kernel)

theorem reach_le (j : Nat) (h : Reach st.heap.children 0 j) : j ≤ 3 := by
  have : ∀ i j, Reach st.heap.children i j → i ≤ 3 → j ≤ 3 := by
    intro i j hr
    induction hr with
    | here => exact id
    | @step i c j hc _ ih =>
      intro hi
      apply ih
      match i, hi with
      | 0, _ => simp [Heap.children, st, heap, SamplerExample.heap] at hc; omega
      | 1, _ => simp [Heap.children, st, heap, SamplerExample.heap] at hc; omega
      | 2, _ => simp [Heap.children, st, heap, SamplerExample.heap] at hc; omega
      | 3, _ => simp [Heap.children, st, heap, SamplerExample.heap] at hc
  exact this 0 j h (by decide)

theorem reachFrom_le (j : Nat) (h : ReachFrom st.heap synth.roots j) : j ≤ 3 := by
  obtain ⟨i, hi, hr⟩ := h
  have hroots : synth.roots = [0] := rfl
  rw [hroots, List.mem_singleton] at hi; subst hi
  exact reach_le j hr

theorem wellFormed : WellFormed synth.roots st.heap := by
  have hch : st.heap.children = SamplerExample.heap.children := rfl
  refine ⟨?_, ?_, ?_, ?_⟩
  · intro i hi; rw [hch]; exact (SamplerExample.ranked i).acyclic
  · intro j
    match j with
    | 0 => decide
    | 1 => decide
    | 2 => decide
    | 3 => intro _; rfl
    | j + 4 => intro _; rfl
  · intro i hi j hj
    have := reachFrom_le j ⟨i, hi, hj⟩
    match j, this with
    | 0, _ => decide
    | 1, _ => decide
    | 2, _ => decide
    | 3, _ => decide
  · intro a ha b hb i j hi hj
    have h1 := reachFrom_le i ⟨a, ha, hi⟩
    have h2 := reachFrom_le j ⟨b, hb, hj⟩
    have : ∀ i ∈ [0, 1, 2, 3], ∀ j ∈ [0, 1, 2, 3],
        (st.heap.samplers i).name = (st.heap.samplers j).name → i = j := by decide
    exact this i (by simp; omega) j (by simp; omega)

theorem downClosed : DownClosed st.heap.children st.heap.sampled := by
  intro j hj
  have : st.heap.sampled j = SamplerExample.heap.sampled j := rfl
  rw [this, SamplerExample.unsampled j] at hj; cases hj

/-- Samplers without secondaries form a well-formed configuration if their names are
distinct and non-empty. -/
theorem wellFormed_flat (roots : List Nat) (h : Heap Nat Nat)
    (hs : ∀ j, (h.samplers j).secondaries = [])
    (hn : ∀ i ∈ roots, (h.samplers i).name ≠ "")
    (hi : ∀ i ∈ roots, ∀ j ∈ roots, (h.samplers i).name = (h.samplers j).name → i = j) :
    WellFormed roots h ∧ ∀ j, ReachFrom h roots j → j ∈ roots := by
  have hc : ∀ i, h.children i = [] := fun i => by simp [Heap.children, hs]
  have hr : ∀ i j, Reach h.children i j → j = i := by
    intro i j r
    cases r with
    | here => rfl
    | step hm _ => rw [hc] at hm; cases hm
  refine ⟨⟨?_, fun j _ => hs j, ?_, ?_⟩, ?_⟩
  · intro i _ j _ c hm; rw [hc] at hm; cases hm
  · intro i hm j r; rw [hr i j r]; exact hn i hm
  · intro a ha b hb i j r1 r2
    rw [hr a i r1, hr b j r2]; exact hi a ha b hb
  · rintro j ⟨i, hm, r⟩; rw [hr i j r]; exact hm

end Popsynth.SurveyExample
