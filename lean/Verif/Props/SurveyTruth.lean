import Verif.Props.Survey

/-!
# C58 (recorded truth of a survey), C59 (what a returned population shares with the synth)
-/

set_option autoImplicit false
set_option linter.unusedSectionVars false

namespace Popsynth
open Spec
variable {F G : Type} [LE F] [DecidableLE F] [OfNat F 0] [OfNat F 1]

/-! ### C58 -/

omit [LE F] [DecidableLE F] [OfNat F 0] [OfNat F 1] in
theorem foldTruth_other (h : Heap F G) (nm : String) (l : Dict Nat) (tr : Dict (Dict F))
    (hn : ∀ p ∈ l, (h.samplers p.2).name ≠ nm) :
    Dict.get? (l.foldl (fun t p => Dict.set t (h.samplers p.2).name
      (truthOf (h.samplers p.2).params)) tr) nm = Dict.get? tr nm := by
  induction l generalizing tr with
  | nil => rfl
  | cons p l ih =>
    rw [List.foldl_cons, ih _ fun q hq => hn q (by simp [hq]), Dict.get?_set_ne _ _ (hn p (by simp))]

omit [LE F] [DecidableLE F] [OfNat F 0] [OfNat F 1] in
theorem foldTruth_in (h : Heap F G) (j : Nat) (l : Dict Nat) (tr : Dict (Dict F))
    (hj : (∃ p ∈ l, p.2 = j) ∨ Dict.get? tr (h.samplers j).name = some (truthOf (h.samplers j).params))
    (hinj : ∀ p ∈ l, (h.samplers p.2).name = (h.samplers j).name → p.2 = j) :
    Dict.get? (l.foldl (fun t p => Dict.set t (h.samplers p.2).name
      (truthOf (h.samplers p.2).params)) tr) (h.samplers j).name =
      some (truthOf (h.samplers j).params) := by
  induction l generalizing tr with
  | nil =>
    rcases hj with ⟨p, hp, -⟩ | hj
    · cases hp
    · exact hj
  | cons p l ih =>
    rw [List.foldl_cons]
    apply ih
    · by_cases hp : p.2 = j
      · right; rw [hp, Dict.get?_set_self]
      · rcases hj with ⟨q, hq, hqj⟩ | hj
        · rcases List.mem_cons.1 hq with rfl | hq
          · exact absurd hqj hp
          · exact .inl ⟨q, hq, hqj⟩
        · right
          rw [Dict.get?_set_ne _ _ (fun hh => hp (hinj p (by simp) hh))]
          exact hj
    · exact fun q hq => hinj q (by simp [hq])

/-- The truth of the samplers in `S` is recorded, and they are done. -/
def TruthOk (h : Heap F G) (S : Nat → Prop) (tr : Dict (Dict F)) : Prop :=
  ∀ j, S j → h.sampled j = true ∧
    Dict.get? tr (h.samplers j).name = some (truthOf (h.samplers j).params)

theorem TruthOk.later {w : World F G} {n : Nat} {v : Spatial F} {h h' : Heap F G}
    {T : List (Nat × SView F)} (e : SEff w n v h h' T) {S : Nat → Prop} {tr : Dict (Dict F)}
    (t : TruthOk h S tr) : TruthOk h' S tr := by
  intro j hj
  obtain ⟨h1, h2⟩ := t j hj
  have hnot : j ∉ T.map Prod.fst := by
    intro hm
    obtain ⟨x, hx, rfl⟩ := List.mem_map.1 hm
    have := e.fresh x hx
    rw [Heap.sampled] at h1
    rw [this] at h1; cases h1
  refine ⟨(e.marks j).2 (.inl h1), ?_⟩
  rw [ident_name (e.ident j), (e.keep j hnot).2.2.1]; exact h2

/-- Recording sampler `i` and its direct dependencies. -/
theorem TruthOk.record {h : Heap F G} {S R : Nat → Prop} {tr : Dict (Dict F)} {i : Nat}
    (t : TruthOk h S tr) (hi : h.sampled i = true) (hd : DownClosed h.children h.sampled)
    (hS : ∀ j, S j → R j) (hRi : R i) (hRc : ∀ c ∈ h.children i, R c)
    (hinj : ∀ a b, R a → R b → (h.samplers a).name = (h.samplers b).name → a = b) :
    TruthOk h (fun j => S j ∨ j = i ∨ j ∈ h.children i)
      (secTruths h i (Dict.set tr (h.samplers i).name (truthOf (h.samplers i).params))) := by
  intro j hj
  have hR : R j := by
    rcases hj with h | rfl | h
    · exact hS j h
    · exact hRi
    · exact hRc j h
  refine ⟨?_, ?_⟩
  · rcases hj with h | rfl | h
    · exact (t j h).1
    · exact hi
    · exact hd i hi j h
  · unfold secTruths
    apply foldTruth_in
    · rcases hj with hj | rfl | hj
      · right
        by_cases hn : (h.samplers i).name = (h.samplers j).name
        · rw [hinj i j hRi hR hn, Dict.get?_set_self]
        · rw [Dict.get?_set_ne _ _ hn]; exact (t j hj).2
      · right; rw [Dict.get?_set_self]
      · obtain ⟨p, hp, hpj⟩ := List.mem_map.1 hj
        exact .inl ⟨p, hp, hpj⟩
    · intro p hp hn
      exact hinj p.2 j (hRc p.2 (List.mem_map.2 ⟨p, hp, rfl⟩)) hR hn

/-- One of `roots` or a direct dependency of one. -/
def Spec.Listed (h : Heap F G) (roots : List Nat) (j : Nat) : Prop :=
  ∃ i ∈ roots, j = i ∨ j ∈ h.children i

omit [LE F] [DecidableLE F] [OfNat F 0] [OfNat F 1] in
theorem listed_reach {h : Heap F G} {roots : List Nat} {j : Nat} (hl : Listed h roots j) :
    ReachFrom h roots j := by
  obtain ⟨i, hi, rfl | hc⟩ := hl
  · exact ⟨_, hi, .here _⟩
  · exact ⟨i, hi, .step hc (.here _)⟩

omit [LE F] [DecidableLE F] [OfNat F 0] [OfNat F 1] in
/-- Recording does not touch other names. -/
theorem record_other (h : Heap F G) (i : Nat) (tr : Dict (Dict F)) (nm : String)
    (hi : (h.samplers i).name ≠ nm) (hc : ∀ c ∈ h.children i, (h.samplers c).name ≠ nm) :
    Dict.get? (secTruths h i (Dict.set tr (h.samplers i).name (truthOf (h.samplers i).params))) nm =
      Dict.get? tr nm := by
  unfold secTruths
  rw [foldTruth_other _ _ _ _ fun p hp => hc p.2 (List.mem_map.2 ⟨p, hp, rfl⟩),
    Dict.get?_set_ne _ _ hi]

theorem auxFold_truth {e : SurveyEnv F G} {n : Nat} {lums : List F} {v : Spatial F}
    (kvs : Dict Nat) (done : List Nat) (loc loc' : Loc F) (s s' : SurvSt F G)
    (hk : foldPy kvs loc (auxStep e n lums v) s = .ok loc' s')
    (hw : WellFormed (done ++ kvs.map Prod.snd) s.heap)
    (hd : DownClosed s.heap.children s.heap.sampled)
    (ht : TruthOk s.heap (Listed s.heap done) loc.truth) :
    TruthOk s'.heap (Listed s'.heap (done ++ kvs.map Prod.snd)) loc'.truth ∧
    ∀ nm, (∀ j, Listed s.heap (kvs.map Prod.snd) j → (s.heap.samplers j).name ≠ nm) →
      Dict.get? loc'.truth nm = Dict.get? loc.truth nm := by
  induction kvs generalizing done loc s with
  | nil =>
    rw [foldPy_nil] at hk; cases hk
    exact ⟨by simpa using ht, fun _ _ => rfl⟩
  | cons kv kvs ih =>
    rw [foldPy_cons, bind_ok_iff] at hk
    obtain ⟨loc1, s1, k1, k2⟩ := hk
    obtain ⟨r⟩ := auxStep_ok k1
    obtain ⟨T, st⟩ := r.eff (hw.acyclic kv.2 (by simp))
    have hch := st.eff.children_eq
    have hnm : ∀ j, (s1.heap.samplers j).name = (s.heap.samplers j).name :=
      fun j => ident_name (st.eff.ident j)
    have hw1 : WellFormed ((done ++ [kv.2]) ++ kvs.map Prod.snd) s1.heap := by
      have := hw.of_ident st.eff.ident
      simpa using this
    have hd1 := st.closed hd
    have hR := (ht.later st.eff).record (R := ReachFrom s1.heap (done ++ [kv.2])) st.sampled hd1
      (by
        intro j hj
        obtain ⟨i, hi, hr⟩ := listed_reach hj
        exact ⟨i, by simp [hi], by rw [hch]; exact hr⟩)
      ⟨kv.2, by simp, .here _⟩ (fun c hc => ⟨kv.2, by simp, .step hc (.here _)⟩)
      (by
        rintro a b ⟨i, hi, hr⟩ ⟨i', hi', hr'⟩
        exact hw1.inj i (List.mem_append.2 (.inl hi)) i' (List.mem_append.2 (.inl hi')) a b hr hr')
    have ht1 : TruthOk s1.heap (Listed s1.heap (done ++ [kv.2])) loc1.truth := by
      rw [r.loc_eq]
      intro j hj
      apply hR j
      obtain ⟨i, hi, hij⟩ := hj
      rcases List.mem_append.1 hi with hi | hi
      · exact .inl ⟨i, hi, by rw [← hch]; exact hij⟩
      · rw [List.mem_singleton] at hi; subst hi
        exact .inr hij
    obtain ⟨i1, i2⟩ := ih (done ++ [kv.2]) loc1 s1 k2 hw1 hd1 ht1
    refine ⟨by simpa using i1, ?_⟩
    intro nm hnm'
    rw [i2 nm, r.loc_eq]
    · apply record_other
      · rw [hnm]; exact hnm' kv.2 ⟨kv.2, by simp, .inl rfl⟩
      · intro c hc
        rw [hnm]
        rw [hch] at hc
        exact hnm' c ⟨kv.2, by simp, .inr hc⟩
    · rintro j ⟨i, hi, hij⟩
      rw [hnm]
      rw [hch] at hij
      exact hnm' j ⟨i, by simp [hi], hij⟩

/-- **C58 (surveys, partial).** For every attached sampler, for the derived luminosity
sampler and for their direct dependencies, the recorded truth is what is stored in the
sampler after the draw; for the luminosity distribution what it stores after its draw;
for the spatial distribution what it stored *before* the survey.  *Missing*: deeper
dependencies are not recorded (`C58_violated_deep`), and the spatial distribution's
untouched defaults are not (`C58_violated_spatial_default`). -/
theorem C58_survey_partial (e : SurveyEnv F G) (y : Synth F) (a : SurveyArgs F)
    (s s' : SurvSt F G) (P : Population F) (hk : drawSurvey e y a s = .ok P s')
    (hw : WellFormed y.roots s.heap) (hd : DownClosed s.heap.children s.heap.sampled) :
    (∀ j, Listed s.heap y.roots j → Dict.get? P.truth (s.heap.samplers j).name =
      some (truthOf (s'.heap.samplers j).params)) ∧
    ((∀ j, Listed s.heap y.roots j → (s.heap.samplers j).name ≠ y.spatialName) →
      (∀ l, y.lumName = some l → l ≠ y.spatialName) →
      Dict.get? P.truth y.spatialName = some (truthOf s.sp.params)) ∧
    (∀ l, y.derived = none → y.lumName = some l →
      (∀ j, Listed s.heap y.roots j → (s.heap.samplers j).name ≠ l) →
      Dict.get? P.truth l = some (truthOf s'.lum.params)) := by
  obtain ⟨r⟩ := drawSurvey_ok hk
  obtain ⟨T, ef⟩ := surveyEff r hw hd
  have pk := mkPopulation_ok r.build.built
  have htr : P.truth = r.d.loc.truth := pk.rest.2.2.2.2.2.2.2.2.2.2.2.2.1
  have p3 : Prepared s.heap r.all.s3.heap := r.all.heap3.prepared
  have hw3 := hw.of_ident p3.ident
  have hd3 : DownClosed r.all.s3.heap.children r.all.s3.heap.sampled := by
    rw [p3.children, p3.sampled]; exact hd
  have hfin : ∀ j, s'.heap.samplers j = r.all.s5.heap.samplers j := by
    intro j
    rw [r.samplers.1]
    have : r.all.s6.heap.samplers = r.all.s5.heap.samplers := by rw [r.all.heap6]
    rw [this]
  -- after the luminosities
  have key : ∃ T0, SEff e.world r.d.n r.d.pos r.all.s3.heap r.all.s4.heap T0 ∧
      DownClosed r.all.s4.heap.children r.all.s4.heap.sampled ∧
      TruthOk r.all.s4.heap (Listed r.all.s4.heap y.derived.toList) r.all.loc1.truth ∧
      ((∀ j, Listed s.heap y.roots j → (s.heap.samplers j).name ≠ y.spatialName) →
        (∀ l, y.lumName = some l → l ≠ y.spatialName) →
        Dict.get? r.all.loc1.truth y.spatialName = some (truthOf s.sp.params)) ∧
      (∀ l, y.derived = none → y.lumName = some l →
        Dict.get? r.all.loc1.truth l = some (truthOf r.all.s4.lum.params)) := by
    rcases drawLuminosities_ok r.all.lumd with ⟨d, hd', ⟨q⟩⟩ | ⟨name, hd', hl', ⟨q⟩⟩
    · have hw3' : WellFormed [d] r.all.s3.heap :=
        hw3.sub (by intro i hi; simp [Synth.roots, hd'] at hi ⊢; exact .inl hi)
      obtain ⟨-, -, q3, q4, ⟨T0, q5, q6⟩, q7⟩ := q.eff hw3' hd3 rfl
      have hw4 := hw3'.of_ident q5.ident
      have hch : r.all.s4.heap.children = s.heap.children := by rw [q5.children_eq, p3.children]
      have hnm : ∀ j, (r.all.s4.heap.samplers j).name = (s.heap.samplers j).name := by
        intro j; rw [ident_name (q5.ident j), ident_name (p3.ident j)]
      refine ⟨T0, q5, q3, ?_, ?_, ?_⟩
      · have h0 : TruthOk r.all.s4.heap (fun _ => False)
            [(y.spatialName, truthOf s.sp.params)] := fun j hj => absurd hj id
        have h1 := h0.record (R := Reach r.all.s4.heap.children d) q4 q3 (fun j hj => absurd hj id)
          (.here _) (fun c hc => .step hc (.here _))
          (fun a b ha hb => hw4.inj d (by simp) d (by simp) a b ha hb)
        rw [q.loc_eq]
        intro j hj
        apply h1 j
        obtain ⟨i, hi, hij⟩ := hj
        rw [hd'] at hi
        simp at hi; subst hi
        exact .inr hij
      · intro h1 _
        rw [q.loc_eq]
        simp only
        rw [record_other]
        · simp [Dict.get?]
        · rw [hnm]; exact h1 d ⟨d, by simp [Synth.roots, hd'], .inl rfl⟩
        · intro c hc
          rw [hnm]
          rw [hch] at hc
          exact h1 c ⟨d, by simp [Synth.roots, hd'], .inr hc⟩
      · intro l h; rw [hd'] at h; cases h
    · have p4 : Prepared r.all.s3.heap r.all.s4.heap :=
        ((onLum_heap q.drawn).trans (onLum_heap q.probd)).prepared
      refine ⟨[], SEff.of_prepared p4, ?_, ?_, ?_, ?_⟩
      · rw [p4.children, p4.sampled]; exact hd3
      · rw [hd']; rintro j ⟨i, hi, -⟩; simp at hi
      · intro _ h2
        rw [q.loc_eq]
        simp only
        rw [Dict.get?_set_ne _ _ (h2 name hl')]; simp [Dict.get?]
      · intro l _ h2
        rw [hl'] at h2; cases h2
        rw [q.loc_eq]
        simp only
        rw [Dict.get?_set_self]
  obtain ⟨T0, a1, a2, a3, a4, a5⟩ := key
  have e4 : SEff e.world r.d.n r.d.pos s.heap r.all.s4.heap ([] ++ T0) :=
    (SEff.of_prepared p3).comp a1
  have hch4 : r.all.s4.heap.children = s.heap.children := e4.children_eq
  have hnm4 : ∀ j, (r.all.s4.heap.samplers j).name = (s.heap.samplers j).name :=
    fun j => ident_name (e4.ident j)
  obtain ⟨b1, b2⟩ := auxFold_truth y.aux y.derived.toList _ _ _ _ r.all.auxd
    (hw.of_ident e4.ident) a2 a3
  have hroots : ∀ j, Listed r.all.s4.heap (y.aux.map Prod.snd) j → Listed s.heap y.roots j := by
    rintro j ⟨i, hi, hij⟩
    exact ⟨i, List.mem_append.2 (.inr hi), by rw [← hch4]; exact hij⟩
  have hid5 : ∀ j, (r.all.s5.heap.samplers j).ident = (s.heap.samplers j).ident := by
    intro j
    rw [← hfin, r.samplers.1]; exact ef.eff.ident j
  have hch5 : r.all.s5.heap.children = s.heap.children := by
    funext i; simp only [Heap.children, ident_secondaries (hid5 i)]
  refine ⟨?_, ?_, ?_⟩
  · intro j hj
    rw [htr, hfin, ← ident_name (hid5 j)]
    refine (b1 j ?_).2
    obtain ⟨i, hi, hij⟩ := hj
    exact ⟨i, hi, by rw [hch5]; exact hij⟩
  · intro h1 h2
    rw [htr, b2 _ (fun j hj => by rw [hnm4]; exact h1 j (hroots j hj))]
    exact a4 h1 h2
  · intro l h1 h2 h3
    rw [htr, b2 _ (fun j hj => by rw [hnm4]; exact h3 j (hroots j hj)), a5 l h1 h2]
    have hl5 : r.all.s5.lum = r.all.s4.lum := by
      refine foldPy_ok_induct (P := fun _ t => t.lum = r.all.s4.lum) rfl ?_ r.all.auxd
      intro kv _ l1 t1 l2 t2 h1 h2
      obtain ⟨ar⟩ := auxStep_ok h2
      exact (congrArg (·.lum) ar.frame).trans h1
    have hl6 : r.all.s6.lum = r.all.s5.lum := by
      have := observeFlux_rng r.all.observed
      exact congrArg (·.lum) this
    rw [r.build.frame.2.2.2.2, r.all.frame7.2.2.2.2.1, hl6, hl5]

/-! ### Violations and examples -/

namespace SurveyExample

/-- In the example survey sampler `"d"` (a dependency of `"b"` and `"c"`, which `"a"`
depends on) was drawn and is reported, but the recorded truth does not mention it. -/
theorem C58_violated_deep : ∃ P, drawSurvey env synth args st = .ok P final ∧
    P.auxiliary.map (fun q => q.map Prod.fst) = some ["d", "b", "c", "a"] ∧
    Dict.get? P.truth "a" = some [] ∧ Dict.get? P.truth "d" = none := by
  obtain ⟨P, hP⟩ := survey_ok
  refine ⟨P, hP, ?_⟩
  have h : (okVal (drawSurvey env synth args st)).map (fun P =>
      P.auxiliary.map (fun q => q.map Prod.fst)) = some (some ["d", "b", "c", "a"]) := by
    decide +kernel
  have h' : (okVal (drawSurvey env synth args st)).map (fun P =>
      (Dict.get? P.truth "a", Dict.get? P.truth "d")) = some (some [], none) := by
    decide +kernel
  rw [(okVal_ok hP).1] at h h'
  simp only [Option.map_some, Option.some.injEq, Prod.mk.injEq] at h h'
  exact ⟨h, h'.1, h'.2⟩

/-- A spatial distribution whose `r_max` (default 10) is read through the descriptor. -/
def defaultEnv : SurveyEnv Nat Nat :=
  { env with spatial := { spatial with readRMax := paramGet { default := some 10, vmin := some 0 } "r_max" } }

/-- The survey uses `r_max = 10`, reports it as the population's `r_max`, but the recorded
truth of the spatial distribution, taken before it was read, does not list it.  The same
survey drawn after `r_max` was read once does list it. -/
theorem C58_violated_spatial_default :
    (∃ P s', drawSurvey defaultEnv synth args st = .ok P s' ∧ P.rMax = 10 ∧
      truthOf s'.sp.params = [("r_max", 10)] ∧ Dict.get? P.truth "space" = some []) ∧
    (∃ P s', drawSurvey defaultEnv synth args
        { st with sp := { st.sp with params := endState (defaultEnv.spatial.readRMax st.sp.params) } }
        = .ok P s' ∧ P.rMax = 10 ∧ Dict.get? P.truth "space" = some [("r_max", 10)]) := by
  constructor
  · obtain ⟨P, hP⟩ : ∃ P, drawSurvey defaultEnv synth args st =
        .ok P (endState (drawSurvey defaultEnv synth args st)) :=
      exists_ok_of_isOk (by decide +kernel)
    refine ⟨P, _, hP, ?_⟩
    have h : (okVal (drawSurvey defaultEnv synth args st)).map (fun P =>
        (P.rMax, truthOf (endState (drawSurvey defaultEnv synth args st)).sp.params,
          Dict.get? P.truth "space")) = some (10, [("r_max", 10)], some []) := by decide +kernel
    rw [(okVal_ok hP).1] at h
    simp only [Option.map_some, Option.some.injEq, Prod.mk.injEq] at h
    exact h
  · obtain ⟨P, hP⟩ : ∃ P, drawSurvey defaultEnv synth args
        { st with sp := { st.sp with params := endState (defaultEnv.spatial.readRMax st.sp.params) } } =
        .ok P (endState (drawSurvey defaultEnv synth args
          { st with sp := { st.sp with params := endState (defaultEnv.spatial.readRMax st.sp.params) } })) :=
      exists_ok_of_isOk (by decide +kernel)
    refine ⟨P, _, hP, ?_⟩
    have h : (okVal (drawSurvey defaultEnv synth args
        { st with sp := { st.sp with params := endState (defaultEnv.spatial.readRMax st.sp.params) } })).map
        (fun P => (P.rMax, Dict.get? P.truth "space")) = some (10, some [("r_max", 10)]) := by
      decide +kernel
    rw [(okVal_ok hP).1] at h
    simp only [Option.map_some, Option.some.injEq, Prod.mk.injEq] at h
    exact h

/-- The example with a parameter on sampler `"b"` (a direct dependency of `"a"`) and on
the luminosity distribution. -/
def paramSt : SurvSt Nat Nat :=
  { st with
    heap := st.heap.modSampler 1 fun c => { c with params := { storage := [("mu", some 7), ("tau", none)] } }
    lum := { params := { storage := [("Lmin", some 5)] } } }

example : ∃ P s', drawSurvey env synth args paramSt = .ok P s' ∧
    Dict.get? P.truth "b" = some [("mu", 7)] ∧ Dict.get? P.truth "lum" = some [("Lmin", 5)] := by
  obtain ⟨P, hP⟩ : ∃ P, drawSurvey env synth args paramSt =
      .ok P (endState (drawSurvey env synth args paramSt)) := exists_ok_of_isOk (by decide +kernel)
  refine ⟨P, _, hP, ?_⟩
  have hid : ∀ j, (paramSt.heap.samplers j).ident = (st.heap.samplers j).ident := by
    intro j
    by_cases hj : j = 1
    · subst hj; rfl
    · simp [paramSt, Heap.modSampler, hj]
  have hw : WellFormed synth.roots paramSt.heap := wellFormed.of_ident hid
  have hd : DownClosed paramSt.heap.children paramSt.heap.sampled := by
    intro j hj
    have : paramSt.heap.sampled j = st.heap.sampled j := by
      by_cases h1 : j = 1
      · subst h1; rfl
      · simp [Heap.sampled, paramSt, Heap.modSampler, h1]
    rw [this] at hj
    have h2 : st.heap.sampled j = SamplerExample.heap.sampled j := rfl
    rw [h2, SamplerExample.unsampled j] at hj; cases hj
  obtain ⟨h1, -, h3⟩ := C58_survey_partial env synth args paramSt _ P hP hw hd
  refine ⟨?_, ?_⟩
  · have h := h1 1 ⟨0, by decide, .inr (by decide)⟩
    have hn : (paramSt.heap.samplers 1).name = "b" := by decide +kernel
    rw [hn] at h
    rw [h]; decide +kernel
  · rw [h3 "lum" rfl rfl ?_]
    · decide +kernel
    · rintro j hj
      have hch : paramSt.heap.children = st.heap.children := by
        funext i; simp only [Heap.children, ident_secondaries (hid i)]
      obtain ⟨i, hi, hr⟩ := listed_reach hj
      have := reachFrom_le j ⟨i, hi, by rw [← hch]; exact hr⟩
      match j, this with
      | 0, _ => decide
      | 1, _ => decide
      | 2, _ => decide
      | 3, _ => decide

end SurveyExample
end Popsynth
