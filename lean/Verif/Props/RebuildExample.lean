import Verif.Props.Rebuild
import Verif.Props.ConfigMore

/-!
# C68: an example, and selectors that are shared
-/

set_option autoImplicit false

namespace Popsynth

open Spec ConfigExample

namespace RebuildExample

/-- Values `8 + mu * k` for the objects `k = 0, 1, …` (observed as they are), distances 1, 2, …,
luminosities `Lmin`, `Lmin + 1`, …. -/
def K : Classes Int Nat where
  spatial := fun _ _ =>
    { count := fun _ => pure 3
      drawDistance := fun n _ => modify fun s =>
        { sp := { s.sp with distances := some ((List.range n).map fun k : Nat => (k : Int) + 1)
                            probability := some (List.replicate n 1) }, rng := s.rng + 1 }
      drawSky := fun n => modify fun s =>
        { sp := { s.sp with theta := some (List.replicate n 0), phi := some (List.replicate n 1) }
          rng := s.rng + 1 }
      transform := fun l d => .ok (List.zipWith (· * ·) l d)
      galB := fun t _ => t
      readRMax := pure 10 }
  lum := fun _ =>
    { draw := fun n s => match paramGet {} "Lmin" s.lum.params with
        | .ok x o => .ok ((List.range n).map fun k : Nat => x + (k : Int))
            { s with lum := { s.lum with params := o } }
        | .error e o => .error e { s with lum := { s.lum with params := o } }
      phi := fun l => pure (l.map fun _ => 2) }
  smp := fun _ =>
    { trueSampler := fun v n g =>
        let mu := ((Dict.get? v.params.storage "mu").getD none).getD 0
        { trueVals := some ((List.range n).map fun k : Nat => 8 + mu * (k : Int)), obsVals := v.obsVals
          params := v.params, rng := g + 1 }
      obsSampler := fun v _ g =>
        { trueVals := v.trueVals, obsVals := v.trueVals, params := v.params, rng := g } }
  usesDistance := fun _ => false
  usesLuminosity := fun _ => false
  kind := fun s => if s = "LowerBound" ∨ s = "HardFluxSelection" then .lower else .unity
  distName := id
  distForm := id
  assigned := fun _ l => { storage := l.map fun p => (p.1, some p.2) }
  truthy := fun v => match v with
    | .bool b => b
    | _ => true

/-- Primitives; the random state is a counter. -/
def base : SurveyEnv Int Nat :=
  { world := { sel := { bern := fun _ g => (g % 2 == 0, g + 1), validProb := fun _ => true
                        softLog := fun _ _ _ => 1, softLin := fun _ _ _ => 1, neg := fun x => -x }
               half := 0, ninety := 90, showProgress := false, code := fun _ => K.smp "" }
    spatial := K.spatial "" .none, lum := K.lum ""
    seed := fun k _ => .ok k.toNat
    poisson := fun N g => (.ok N.toNat, g + 1)
    normal := fun _ g => (g % 3, g + 1)
    validScale := fun _ => true
    mul := (· * ·), add := (· + ·), log10 := id, pow10 := id, ln := id, exp := id
    isFinite := fun _ => true, minusOne := -1, frames := 10
    toDict := fun _ _ => .ok .none }

/-- Put the samplers with the addresses `l` at 0, 1, … and their selectors where `sel` says. -/
def place (l : List String) (i : String) : Nat := (l.idxOf? i).getD 99

def mem (y : CSynth Int) (l : List String) (sel : Role → Nat) : SurvSt Int Nat :=
  { heap :=
      { samplers := fun j => ((l[j]?.bind (Dict.get? y.objs)).map
          fun c => K.sampler (place l) (sel (.of (l.getD j ""))) c).getD { name := "", obsName := "" }
        selectors := fun q =>
          if q = 10 then K.selector (y.fluxSel.getD unitySel)
          else if q = 11 then K.selector (y.distSel.getD unitySel)
          else ((l[q]?.bind (Dict.get? y.objs)).map fun c => K.selector c.sel).getD { kind := .dummy }
        rng := 7 }
    sp := { params := K.assigned y.spatial.cls (truthOf y.spatial.obj) }
    lum := { params := (y.lum.map fun l => K.assigned l.cls (truthOf l.obj)).getD {} }
    graph := ({} : Graph).addNode (K.distName y.spatial.cls) none }

/-- Every sampler has a selector of its own. -/
def apart (l : List String) : Role → Nat
  | .flux => 10
  | .dist => 11
  | .spat => 12
  | .of i => place l i

/-- The samplers share one selector. -/
def shared : Role → Nat
  | .flux => 10
  | .dist => 11
  | .spat => 12
  | .of _ => 0

/-- The survey of what is in memory. -/
def survey (y : CSynth Int) (l : List String) (sel : Role → Nat) :
    EStateM.Result Err (SurvSt Int Nat) (Population Int) :=
  drawSurvey (K.env reg 9 base (fun _ => K.smp "") y) (K.synth (place l) sel y) {} (mem y l sel)

/-- Two samplers, selected by lower bounds at 7. -/
def two : CSynth Int :=
  { synth with
    objs := [
      ("0", { cls := "NormalAuxSampler", name := "a", obsName := "a_obs", observed := .bool true
              obj := { storage := [("mu", some (-2))] }
              sel := { cls := "LowerBound", obj := { storage := [("boundary", some 7)] }
                       flags := { obs := true } } }),
      ("1", { cls := "NormalAuxSampler", name := "b", obsName := "b_obs", observed := .bool true
              obj := { storage := [("mu", some 2)] }
              sel := { cls := "LowerBound", obj := { storage := [("boundary", some 7)] }
                       flags := { obs := true } } })]
    aux := [("a", "0"), ("b", "1")] }

theorem flagsRight : FlagsRight reg K := by
  intro n k hk hu
  have hm : (n, k) ∈ reg.sels := Dict.mem_of_get? hk
  simp only [reg, List.mem_cons, Prod.mk.injEq, List.not_mem_nil, or_false] at hm
  rcases hm with ⟨rfl, rfl⟩ | ⟨rfl, rfl⟩ | ⟨rfl, rfl⟩
  · cases hu
  · cases hu
  · rfl

theorem secondary_marked : ∀ i c, Used synth i → Dict.get? synth.objs i = some c →
    (c.isSecondary = true ↔ ¬ Root synth i) := by
  intro i c hi hc
  rcases ConfigExample.used hi with rfl | rfl
  · cases hc
    exact ⟨fun h => Bool.noConfusion h, fun h => (h (Or.inl ⟨"x", by simp [synth]⟩)).elim⟩
  · cases hc
    simp only [true_iff]
    rintro (⟨k, h⟩ | h)
    · simp [synth] at h
    · cases h

theorem inMemory : InMemory K synth (place ["0", "1"]) (apart ["0", "1"]) (fun _ => K.smp "")
    (mem synth ["0", "1"] (apart ["0", "1"])) where
  smp := by
    intro i c hi hc
    rcases ConfigExample.used hi with rfl | rfl <;> cases hc <;> rfl
  code := fun _ _ _ _ => rfl
  own := by
    intro i c hi hc
    rcases ConfigExample.used hi with rfl | rfl <;> cases hc <;> rfl
  flux := rfl
  dist := rfl
  spat := by intro q hq; cases hq
  smpApart := by
    intro i j hi hj e
    rcases ConfigExample.used hi with rfl | rfl <;> rcases ConfigExample.used hj with rfl | rfl <;>
      first | rfl | (revert e; decide)
  selApart := by
    intro a b ha hb e
    have key : ∀ r, RoleUsed synth r → r = .flux ∨ r = .dist ∨ r = .of "0" ∨ r = .of "1" := by
      intro r hr
      cases hr with
      | flux => exact .inl rfl
      | dist => exact .inr (.inl rfl)
      | spat h => cases h
      | of h =>
        rcases ConfigExample.used h with rfl | rfl
        · exact .inr (.inr (.inl rfl))
        · exact .inr (.inr (.inr rfl))
    rcases key a ha with rfl | rfl | rfl | rfl <;> rcases key b hb with rfl | rfl | rfl | rfl <;>
      first | rfl | (revert e; decide)
  sp := rfl
  lum := rfl
  graph := rfl

/-- `C68_rebuilt_partial` and `C68_dict_in_memory` are not empty: the example returns, with two
of three objects detected. -/
example : (∃ d y' d', toDict reg 5 synth = .ok d ∧ fromDict reg conv d = .ok y' d' ∧
      ∀ at2 sel2 code2 s', InMemory K y' at2 sel2 code2 s' → 7 = s'.heap.rng →
        ∀ (fuel' : Nat) (base : SurveyEnv Int Nat) (args : SurveyArgs Int), SameOutcome
          (drawSurvey (K.env reg fuel' base (fun _ => K.smp "") synth)
            (K.synth (place ["0", "1"]) (apart ["0", "1"]) synth) args
            (mem synth ["0", "1"] (apart ["0", "1"])))
          (drawSurvey (K.env reg fuel' base code2 y') (K.synth at2 sel2 y') args s')) ∧
    (okVal (survey synth ["0", "1"] (apart ["0", "1"]))).map (fun P => P.selection) =
      some [true, true, false] :=
  ⟨C68_rebuilt_partial conv 5 ConfigExample.config (by
      intro i hi
      rcases ConfigExample.used (.root hi) with rfl | rfl <;> decide) flagsRight secondary_marked
      inMemory, by decide +kernel⟩

example : (K.env reg 5 base (fun _ => K.smp "") synth).toDict
    (K.synth (place ["0", "1"]) (apart ["0", "1"]) synth)
    (mem synth ["0", "1"] (apart ["0", "1"])) = (toDict reg 5 synth).map .dict :=
  C68_dict_in_memory ConfigExample.config ⟨fun n l => truthOf_some l none, by
    intro i c hi hc
    rcases ConfigExample.used hi with rfl | rfl <;> cases hc <;> rfl⟩ inMemory 5 base

/-- **C68 (violated: a shared selector).** Two samplers are given one and the same selector
object, a lower bound at 7.  `to_dict` writes the same as for two separate selectors, so
`from_dict` makes two.  In the original survey the second sampler overwrites the selection of
the first, which is lost, and all three objects are detected; in the survey of the rebuilt synth
only the first object is. -/
theorem C68_violated_shared :
    ((K.env reg 9 base (fun _ => K.smp "") two).toDict (K.synth (place ["0", "1"]) shared two)
      (mem two ["0", "1"] shared) = (toDict reg 9 two).map .dict) ∧
    (okVal (survey two ["0", "1"] shared)).map (fun P => P.selection) = some [true, true, true] ∧
    ∃ y', reload reg conv 9 two = .ok y' ∧
      (okVal (survey y' ["a", "b"] (apart ["a", "b"]))).map (fun P => P.selection) =
        some [true, false, false] := by
  refine ⟨rfl, by decide +kernel, _, rfl, by decide +kernel⟩

end RebuildExample

end Popsynth
