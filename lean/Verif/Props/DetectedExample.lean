import Verif.Props.Detected
import Verif.Props.RebuildExample

/-!
# C72: an example
-/

set_option autoImplicit false

namespace Popsynth

open Spec ConfigExample

namespace DetectedExample

/-- The classes of `RebuildExample` with the selections of the package. -/
def K : Classes Int Nat :=
  { RebuildExample.K with kind := fun n => (List.lookup n builtinKind).getD .dummy }

/-- Fluxes from 4 on; values of `a` from 5 on; distances `x`. -/
def file (x : PVal Int) : Dict (PVal Int) :=
  [("seed", .int 1),
   ("spatial distribution", .dict [("ConstantSphericalDistribution",
      .dict [("Lambda", .num 1), ("r_max", .num 3)])]),
   ("luminosity distribution", .dict [("ParetoDistribution",
      .dict [("Lmin", .num 2), ("alpha", .num 2)])]),
   ("flux selection", .dict [("HardFluxSelection", .dict [("boundary", .num 4)])]),
   ("distance selection", x),
   ("auxiliary samplers", .dict [("a", .dict [("type", .str "NormalAuxSampler"),
      ("observed", .bool true), ("mu", .num (-2)),
      ("selection", .dict [("LowerBound", .dict [("boundary", .num 5)])])])])]

/-- What `from_dict` makes of it. -/
def synth (q : Option (CSel Int)) : CSynth Int where
  seed := 1
  spatial := { cls := "ConstantSphericalDistribution"
               obj := { storage := [("Lambda", some 1), ("r_max", some 3)]
                        norm := some "Lambda" }, isRate := .none }
  lum := some { cls := "ParetoDistribution", obj := { storage := [("Lmin", some 2), ("alpha", some 2)] } }
  fluxSel := some { cls := "HardFluxSelection", obj := { storage := [("boundary", some 4)] }
                    flags := { flux := true } }
  distSel := q
  objs := [("a", { cls := "NormalAuxSampler", name := "a", obsName := "a_obs", observed := .bool true
                   obj := { storage := [("mu", some (-2))] }
                   sel := { cls := "LowerBound", obj := { storage := [("boundary", some 5)] }
                            flags := { obs := true } } })]
  aux := [("a", "a")]

theorem read : ∃ e, fromDict (builtins 0) conv (file .none) = .ok (synth none) e := ⟨_, rfl⟩

/-- A section that asks for known distances from 2 on. -/
def near : PVal Int := .dict [("LowerBound", .dict [("boundary", .num 2)])]

def nearSel : CSel Int :=
  { cls := "LowerBound", obj := { storage := [("boundary", some 2)] }, flags := { dist := true } }

theorem read_near : ∃ e, fromDict (builtins 0) conv (file near) = .ok (synth (some nearSel)) e :=
  ⟨_, rfl⟩

theorem proper (x : PVal Int) (hx : Proper x) : Proper (.dict (file x)) := by
  have o : ∀ v : PVal Int, (∀ d, v ≠ .dict d) → Proper v := fun v h => .other v h
  have one : ∀ (k : String) (v : PVal Int), Proper v → Proper (.dict [(k, v)]) := by
    intro k v h
    refine .dict _ (by simp [Dict.keys]) ?_
    intro k' v' hm
    simp only [List.mem_singleton, Prod.mk.injEq] at hm
    rw [hm.2]; exact h
  have two : ∀ (k l : String) (v w : PVal Int), k ≠ l → Proper v → Proper w →
      Proper (.dict [(k, v), (l, w)]) := by
    intro k l v w hkl h h'
    refine .dict _ (by simp [Dict.keys, hkl]) ?_
    intro k' v' hm
    simp only [List.mem_cons, List.not_mem_nil, or_false, Prod.mk.injEq] at hm
    rcases hm with hm | hm
    · rw [hm.2]; exact h
    · rw [hm.2]; exact h'
  have num : ∀ z : Int, Proper (PVal.num z) := fun z => o _ fun d h => by cases h
  refine .dict _ (by simp [Dict.keys, file]) ?_
  intro k v hm
  simp only [file, List.mem_cons, List.not_mem_nil, or_false, Prod.mk.injEq] at hm
  rcases hm with ⟨-, rfl⟩ | ⟨-, rfl⟩ | ⟨-, rfl⟩ | ⟨-, rfl⟩ | ⟨-, rfl⟩ | ⟨-, rfl⟩
  · exact o _ fun d h => by cases h
  · exact one _ _ (two _ _ _ _ (by decide) (num _) (num _))
  · exact one _ _ (two _ _ _ _ (by decide) (num _) (num _))
  · exact one _ _ (one _ _ (num _))
  · exact hx
  · refine one _ _ (.dict _ (by decide) ?_)
    intro k v hm
    simp only [List.mem_cons, List.not_mem_nil, or_false, Prod.mk.injEq] at hm
    rcases hm with ⟨-, rfl⟩ | ⟨-, rfl⟩ | ⟨-, rfl⟩ | ⟨-, rfl⟩
    · exact o _ fun d h => by cases h
    · exact o _ fun d h => by cases h
    · exact num _
    · exact one _ _ (one _ _ (num _))

theorem used {q : Option (CSel Int)} {i : String} (h : Used (synth q) i) : i = "a" := by
  induction h with
  | root h =>
    rcases h with ⟨k, h⟩ | h
    · simp only [synth, List.mem_singleton, Prod.mk.injEq] at h
      exact h.2
    · cases h
  | sec h1 h2 h3 ih =>
    subst ih
    cases h2
    simp at h3

def mem (q : Option (CSel Int)) : SurvSt Int Nat :=
  { heap :=
      { samplers := fun j => if j = 0 then (((Dict.get? (synth q).objs "a").map
          fun c => K.sampler (fun _ => 0) 0 c).getD { name := "", obsName := "" })
          else { name := "", obsName := "" }
        selectors := fun j =>
          if j = 0 then (((Dict.get? (synth q).objs "a").map fun c => K.selector c.sel).getD
            { kind := .dummy })
          else if j = 10 then K.selector ((synth q).fluxSel.getD unitySel)
          else K.selector ((synth q).distSel.getD unitySel)
        rng := 7 }
    sp := { params := K.assigned (synth q).spatial.cls (truthOf (synth q).spatial.obj) }
    lum := { params := ((synth q).lum.map fun l => K.assigned l.cls (truthOf l.obj)).getD {} }
    graph := ({} : Graph).addNode (K.distName (synth q).spatial.cls) none }

abbrev sel : Role → Nat := RebuildExample.apart ["a"]

def survey (q : Option (CSel Int)) : EStateM.Result Err (SurvSt Int Nat) (Population Int) :=
  drawSurvey (K.env (builtins 0) 9 RebuildExample.base (fun _ => K.smp "") (synth q))
    (K.synth (fun _ => 0) sel (synth q)) {} (mem q)

theorem inMemory (q : Option (CSel Int)) :
    InMemory K (synth q) (fun _ => 0) sel (fun _ => K.smp "") (mem q) where
  smp := by
    intro i c hi hc
    obtain rfl := used hi
    cases hc; rfl
  code := fun _ _ _ _ => rfl
  own := by
    intro i c hi hc
    obtain rfl := used hi
    cases hc; rfl
  flux := rfl
  dist := rfl
  spat := by intro q hq; cases hq
  smpApart := by
    intro i j hi hj _
    rw [used hi, used hj]
  selApart := by
    intro a b ha hb e
    have key : ∀ r, RoleUsed (synth q) r → r = .flux ∨ r = .dist ∨ r = .of "a" := by
      intro r hr
      cases hr with
      | flux => exact .inl rfl
      | dist => exact .inr (.inl rfl)
      | spat h => cases h
      | of h => rw [used h]; exact .inr (.inr rfl)
    rcases key a ha with rfl | rfl | rfl <;> rcases key b hb with rfl | rfl | rfl <;>
      first | rfl | (revert e; decide)
  sp := rfl
  lum := rfl
  graph := rfl

theorem packaged : Packaged K where
  kind := by
    intro n k h
    simp only [builtinKind, List.mem_cons, List.not_mem_nil, or_false, Prod.mk.injEq] at h
    rcases h with ⟨rfl, rfl⟩ | ⟨rfl, rfl⟩ | ⟨rfl, rfl⟩ | ⟨rfl, rfl⟩ | ⟨rfl, rfl⟩ | ⟨rfl, rfl⟩ |
      ⟨rfl, rfl⟩ | ⟨rfl, rfl⟩ | ⟨rfl, rfl⟩ | ⟨rfl, rfl⟩ | ⟨rfl, rfl⟩ <;> rfl
  values := by
    intro n l k
    show (Dict.get? (l.map fun p => (p.1, some p.2)) k).join = Dict.get? l k
    induction l with
    | nil => rfl
    | cons p l ih =>
      simp only [List.map_cons, Dict.get?]
      split
      · rfl
      · exact ih

theorem orderly (q : Option (CSel Int)) : Orderly (mem q).heap where
  wired := by
    intro j _
    by_cases hj : j = 0
    · subst hj; rfl
    · simp [mem, hj]
  drawn := by
    intro j hj
    by_cases h : j = 0
    · subst h; cases hj
    · simp [mem, h, Heap.sampled] at hj

/-- `C72_detects` and `C72_known` are not empty: of the three objects, with fluxes 2, 6, 12 and
values 8, 6, 4, the second is detected; its distance is known. -/
example : ∃ P s', survey none = .ok P s' ∧ P.fluxes.obs = [2, 6, 12] ∧
    P.selection = [false, true, false] ∧ P.knownDistances = [2] ∧
    (∀ i, P.selection[i]? = some true → AsDemanded conv (fun x => -x) (file .none) P P.theta.obs
      (Used (synth none)) (nameAt (synth none).objs) i) ∧ P.unknownIdx = [] := by
  have hS : (okVal (survey none)).map (fun P => (P.fluxes.obs, P.selection, P.knownDistances)) =
      some ([2, 6, 12], [false, true, false], [2]) := by decide +kernel
  cases hP : survey none with
  | error e s' => rw [hP] at hS; cases hS
  | ok P s' =>
    rw [hP] at hS
    simp only [okVal, Option.map_some, Option.some.injEq, Prod.mk.injEq] at hS
    obtain ⟨e, he⟩ := read
    have hac : ∀ i c k j, Used (synth none) i → Dict.get? (synth none).objs i = some c →
        (k, j) ∈ c.secs → (fun _ => 0) j < (fun _ : String => 0) i := by
      intro i c k j hi hc hk
      obtain rfl := used hi
      cases hc
      simp at hk
    have hne : ∀ k c, Used (synth none) k → Dict.get? (synth none).objs k = some c → c.name ≠ "" := by
      intro k c hk hc
      obtain rfl := used hk
      cases hc
      decide
    have pr := proper .none (.other _ fun d h => by cases h)
    refine ⟨P, s', rfl, hS.1, hS.2.1, hS.2.2, fun i => ?_, ?_⟩
    · exact (C72_detects pr he hac hne packaged (inMemory none) (orderly none) _ _ _ hP rfl rfl i).1
    · exact (C72_known pr he hac hne packaged (inMemory none) (orderly none) _ _ _ hP
        (.inr (.inl rfl))).1

/-- `C72_violated_distance`: with known distances from 2 on, the same survey raises a type
error. -/
example : outcome (survey (some nearSel)) = .error .type ∧
    ∃ e, fromDict (builtins 0) conv (file near) = .ok (synth (some nearSel)) e := by
  refine ⟨?_, read_near⟩
  have : (match survey (some nearSel) with
    | .error .type _ => true
    | _ => false) = true := by decide +kernel
  revert this
  cases h : survey (some nearSel) with
  | ok P s => simp
  | error e s => cases e <;> simp [outcome]

end DetectedExample

end Popsynth
