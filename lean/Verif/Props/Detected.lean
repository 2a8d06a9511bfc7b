import Verif.Props.Declarations
import Verif.Props.Rebuild
import Verif.Props.Survey
import Verif.Props.SurveySources

/-!
# What a configuration file asks for is what a survey detects (C72)

From the sections of the dictionary to the objects of the population: `from_dict`, then the
objects in memory, then `draw_survey`.
-/

set_option autoImplicit false
set_option linter.unusedSectionVars false

namespace Popsynth
open Spec

variable {F G : Type} [∀ n, OfNat F n] [LE F] [DecidableLE F]

namespace Spec

/-- The section `v` demands `Q` of the values it looks at. -/
inductive Demands (C : Conv F) : PVal F → (F → Prop) → Prop
  | lower (ps rest : Dict (PVal F)) (w : PVal F) (b : F) : Dict.get? ps "boundary" = some w →
      IsNumber C w b → Demands C (.dict (("LowerBound", .dict ps) :: rest)) (fun x => b ≤ x)
  | upper (ps rest : Dict (PVal F)) (w : PVal F) (b : F) : Dict.get? ps "boundary" = some w →
      IsNumber C w b → Demands C (.dict (("UpperBound", .dict ps) :: rest)) (fun x => x ≤ b)
  | box (ps rest : Dict (PVal F)) (v w : PVal F) (lo hi : F) : Dict.get? ps "vmin" = some v →
      Dict.get? ps "vmax" = some w → IsNumber C v lo → IsNumber C w hi →
      Demands C (.dict (("BoxSelection", .dict ps) :: rest)) (fun x => lo ≤ x ∧ x ≤ hi)
  | unity (p : PVal F) (rest : Dict (PVal F)) :
      Demands C (.dict (("UnitySelection", p) :: rest)) (fun _ => True)

/-- The section `v` demands `Q` of the fluxes. -/
inductive FluxDemands (C : Conv F) : PVal F → (F → Prop) → Prop
  | hard (ps rest : Dict (PVal F)) (w : PVal F) (b : F) : Dict.get? ps "boundary" = some w →
      IsNumber C w b → FluxDemands C (.dict (("HardFluxSelection", .dict ps) :: rest)) (fun x => b ≤ x)
  | other {v : PVal F} {Q : F → Prop} : Demands C v Q → FluxDemands C v Q

/-- The section `v` demands `Q` of distances and galactic latitudes; `neg` is the sign change of
numbers. -/
inductive SpaceDemands (C : Conv F) (neg : F → F) : PVal F → (F → F → Prop) → Prop
  | plane (ps rest : Dict (PVal F)) (w : PVal F) (l : F) : Dict.get? ps "b_limit" = some w →
      IsNumber C w l → SpaceDemands C neg (.dict (("GalacticPlaneSelection", .dict ps) :: rest))
        (fun _ b => l ≤ b ∨ b ≤ neg l)
  | distance (ps rest : Dict (PVal F)) (v w : PVal F) (lo hi : F) :
      Dict.get? ps "min_distance" = some v → Dict.get? ps "max_distance" = some w →
      IsNumber C v lo → IsNumber C w hi →
      SpaceDemands C neg (.dict (("DistanceSelection", .dict ps) :: rest))
        (fun x _ => lo ≤ x ∧ x ≤ hi)

/-- `l` has an entry `i` and it satisfies `Q`. -/
def Nth (l : List F) (i : Nat) (Q : F → Prop) : Prop := ∃ x, l[i]? = some x ∧ Q x

/-- Object `i` of the population has what the sections of the dictionary demand; `gal` are the
galactic latitudes, `used k` says that entry `k` is in use and `name k` is the name of its
sampler. -/
structure AsDemanded (C : Conv F) (neg : F → F) (d : Dict (PVal F)) (P : Population F)
    (gal : List F) (used : String → Prop) (name : String → String) (i : Nat) : Prop where
  flux : ∀ v Q, Dict.get? d "flux selection" = some v → FluxDemands C v Q → Nth P.fluxes.obs i Q
  space : ∀ v Q, Dict.get? d "spatial selection" = some v → SpaceDemands C neg v Q →
    ∃ x b, P.distances.obs[i]? = some x ∧ gal[i]? = some b ∧ Q x b
  samplers : ∀ E k e v Q, Dict.get? d "auxiliary samplers" = some (.dict E) → used k →
    Dict.get? E k = some (.dict e) → Dict.get? e "selection" = some v → Demands C v Q →
    ∃ a, Dict.get? P.attrs (name k) = some a ∧ Nth a.obs i Q

/-- Every selection of the dictionary is one of those with a definite demand. -/
structure Definite (C : Conv F) (neg : F → F) (d : Dict (PVal F)) : Prop where
  flux : ∀ v, Dict.get? d "flux selection" = some v → v = .none ∨ ∃ Q, FluxDemands C v Q
  space : ∀ v, Dict.get? d "spatial selection" = some v → v = .none ∨ ∃ Q, SpaceDemands C neg v Q
  samplers : ∀ E k e v, Dict.get? d "auxiliary samplers" = some (.dict E) →
    Dict.get? E k = some (.dict e) → Dict.get? e "selection" = some v →
    v = .none ∨ ∃ Q, Demands C v Q

/-- The selections in memory do what their classes do, and a new object holds the values that
were assigned. -/
structure Packaged (K : Classes F G) : Prop where
  kind : ∀ n k, (n, k) ∈ builtinKind (F := F) (G := G) → K.kind n = k
  values : ∀ n l k, (Dict.get? (K.assigned n l).storage k).join = Dict.get? l k

/-- Other samplers in memory are in order. -/
structure Orderly (h : Heap F G) : Prop where
  wired : ∀ j, (h.samplers j).hasSecondary = false → (h.samplers j).secondaries = []
  drawn : DownClosed h.children h.sampled

end Spec

/-! ### The objects in memory -/

section memory
variable {R : Registry F} {rank : String → Nat} {y : CSynth F} {K : Classes F G}
  {at1 : String → Nat} {sel1 : Role → Nat} {code1 : Nat → SamplerCode F G} {s : SurvSt F G}

theorem root_iff {y : CSynth F} {i : Nat} : i ∈ (K.synth at1 sel1 y).roots ↔ ∃ k, Root y k ∧ at1 k = i := by
  unfold Synth.roots Classes.synth
  simp only [List.mem_append, Option.mem_toList, Option.map_eq_some_iff, List.map_map, List.mem_map,
    Function.comp]
  constructor
  · rintro (⟨k, h, rfl⟩ | ⟨p, h, rfl⟩)
    · exact ⟨k, .inr h, rfl⟩
    · exact ⟨p.2, .inl ⟨p.1, h⟩, rfl⟩
  · rintro ⟨k, ⟨n, h⟩ | h, rfl⟩
    · exact .inr ⟨(n, k), h, rfl⟩
    · exact .inl ⟨k, h, rfl⟩

theorem child_iff (m : InMemory K y at1 sel1 code1 s) {k : String} {c : CSampler F} (hk : Used y k)
    (hc : Dict.get? y.objs k = some c) {j : Nat} :
    j ∈ s.heap.children (at1 k) ↔ ∃ n l, (n, l) ∈ c.secs ∧ at1 l = j := by
  unfold Heap.children
  rw [m.smp k c hk hc]
  simp only [Classes.sampler, List.map_map, List.mem_map, Function.comp]
  constructor
  · rintro ⟨p, h, rfl⟩; exact ⟨p.1, p.2, h, rfl⟩
  · rintro ⟨n, l, h, rfl⟩; exact ⟨(n, l), h, rfl⟩

theorem reach_used (hy : Config R rank y) (m : InMemory K y at1 sel1 code1 s) {a j : Nat}
    (h : Reach s.heap.children a j) : ∀ k, Used y k → at1 k = a → ∃ l, Used y l ∧ at1 l = j := by
  induction h with
  | here i => exact fun k h e => ⟨k, h, e⟩
  | step hc _ ih =>
    rintro k hk rfl
    obtain ⟨c, h1, -⟩ := hy.sampler k hk
    obtain ⟨n, l, h2, h3⟩ := (child_iff m hk h1).1 hc
    exact ih l (.sec hk h1 h2) h3

theorem used_reach (m : InMemory K y at1 sel1 code1 s) {k : String} (h : Used y k) :
    ReachFrom s.heap (K.synth at1 sel1 y).roots (at1 k) := by
  induction h with
  | root h => exact ⟨_, root_iff.2 ⟨_, h, rfl⟩, .here _⟩
  | sec h1 h2 h3 ih =>
    obtain ⟨i, hi, hr⟩ := ih
    refine ⟨i, hi, ?_⟩
    have hc := (child_iff m h1 h2).2 ⟨_, _, h3, rfl⟩
    clear hi
    generalize at1 _ = a at hr hc
    induction hr with
    | here => exact .step hc (.here _)
    | step g _ ih => exact .step g (ih hc)

theorem reachFrom_iff (hy : Config R rank y) (m : InMemory K y at1 sel1 code1 s) {j : Nat} :
    ReachFrom s.heap (K.synth at1 sel1 y).roots j ↔ ∃ k, Used y k ∧ at1 k = j := by
  constructor
  · rintro ⟨i, hi, hr⟩
    obtain ⟨k, hk, rfl⟩ := root_iff.1 hi
    exact reach_used hy m hr k (.root hk) rfl
  · rintro ⟨k, hk, rfl⟩
    exact used_reach m hk

open Classical in
theorem wellFormed_of (hy : Config R rank y) (m : InMemory K y at1 sel1 code1 s)
    (ho : Orderly s.heap) (hn : ∀ k c, Used y k → Dict.get? y.objs k = some c → c.name ≠ "") :
    WellFormed (K.synth at1 sel1 y).roots s.heap := by
  have hin : ∀ i ∈ (K.synth at1 sel1 y).roots, ∀ j, Reach s.heap.children i j →
      ∃ k c, Used y k ∧ Dict.get? y.objs k = some c ∧ at1 k = j := by
    intro i hi j hr
    obtain ⟨k, h1, h2⟩ := (reachFrom_iff hy m).1 ⟨i, hi, hr⟩
    obtain ⟨c, h3, -⟩ := hy.sampler k h1
    exact ⟨k, c, h1, h3, h2⟩
  have hname : ∀ k c, Used y k → Dict.get? y.objs k = some c → (s.heap.samplers (at1 k)).name = c.name := by
    intro k c h1 h2
    rw [m.smp k c h1 h2]; rfl
  refine ⟨?_, ho.wired, ?_, ?_⟩
  · intro i hi
    let r : Nat → Nat := fun j => if h : ∃ k, Used y k ∧ at1 k = j then rank h.choose else 0
    have hr : ∀ k, Used y k → r (at1 k) = rank k := by
      intro k hk
      have hex : ∃ l, Used y l ∧ at1 l = at1 k := ⟨k, hk, rfl⟩
      show (if h : ∃ l, Used y l ∧ at1 l = at1 k then rank h.choose else 0) = _
      rw [dif_pos hex, m.smpApart _ _ hex.choose_spec.1 hk hex.choose_spec.2]
    refine Ranked.acyclic (r := r) ?_
    intro j hj c hc
    obtain ⟨k, x, h1, h2, rfl⟩ := hin i hi j hj
    obtain ⟨n, l, h3, rfl⟩ := (child_iff m h1 h2).1 hc
    rw [hr k h1, hr l (.sec h1 h2 h3)]
    exact hy.acyclic k x n l h1 h2 h3
  · intro i hi j hj
    obtain ⟨k, c, h1, h2, rfl⟩ := hin i hi j hj
    rw [hname k c h1 h2]
    exact hn k c h1 h2
  · intro a ha b hb i j hi hj e
    obtain ⟨k, c, h1, h2, rfl⟩ := hin a ha i hi
    obtain ⟨l, x, g1, g2, rfl⟩ := hin b hb j hj
    rw [hname k c h1 h2, hname l x g1 g2] at e
    rw [hy.names k l c x h1 g1 h2 g2 e]

theorem ownSelectors_of (hy : Config R rank y) (m : InMemory K y at1 sel1 code1 s) :
    OwnSelectors (K.synth at1 sel1 y) s.heap := by
  have hsel : ∀ k, Used y k → (s.heap.samplers (at1 k)).selector = sel1 (.of k) := by
    intro k hk
    obtain ⟨c, h, -⟩ := hy.sampler k hk
    rw [m.smp k c hk h]; rfl
  have hspat : ∀ a, RoleUsed y a → a ≠ .spat → some (sel1 a) ≠ (K.synth at1 sel1 y).spatSel := by
    intro a ha hne e
    have e' : some (sel1 a) = y.spatSel.map fun _ => sel1 .spat := e
    cases hq : y.spatSel with
    | none => rw [hq] at e'; cases e'
    | some q =>
      rw [hq] at e'
      have e2 : sel1 a = sel1 .spat := by simpa using e'
      exact hne (m.selApart _ _ ha (.spat hq) e2)
  refine ⟨?_, ?_, ?_, ?_, ?_, ?_, ?_⟩
  · intro i j hi hj e
    obtain ⟨k, h1, rfl⟩ := (reachFrom_iff hy m).1 hi
    obtain ⟨l, h2, rfl⟩ := (reachFrom_iff hy m).1 hj
    rw [hsel k h1, hsel l h2] at e
    cases m.selApart _ _ (.of h1) (.of h2) e
    rfl
  · intro j hj e
    obtain ⟨k, h1, rfl⟩ := (reachFrom_iff hy m).1 hj
    rw [hsel k h1] at e
    cases m.selApart _ _ (.of h1) .flux e
  · intro j hj e
    obtain ⟨k, h1, rfl⟩ := (reachFrom_iff hy m).1 hj
    rw [hsel k h1] at e
    cases m.selApart _ _ (.of h1) .dist e
  · intro j hj
    obtain ⟨k, h1, rfl⟩ := (reachFrom_iff hy m).1 hj
    rw [hsel k h1]
    exact hspat _ (.of h1) (by simp)
  · intro e
    cases m.selApart _ _ .flux .dist e
  · exact hspat _ .flux (by simp)
  · exact hspat _ .dist (by simp)

theorem fresh_of (hy : Config R rank y) (m : InMemory K y at1 sel1 code1 s) :
    Fresh (K.synth at1 sel1 y) s.heap := by
  refine ⟨?_, ?_, ?_⟩
  · intro j hj
    obtain ⟨k, h1, rfl⟩ := (reachFrom_iff hy m).1 hj
    obtain ⟨c, h, -⟩ := hy.sampler k h1
    show (s.heap.samplers (at1 k)).isSampled = false
    rw [m.smp k c h1 h]; rfl
  · show (s.heap.selectors (sel1 .flux)).isSampled = false
    rw [m.flux]; rfl
  · intro p hp
    have hp' : (y.spatSel.map fun _ => sel1 .spat) = some p := hp
    cases hq : y.spatSel with
    | none => rw [hq] at hp'; cases hp'
    | some q =>
      rw [hq] at hp'
      cases hp'
      rw [m.spat q hq]; rfl

end memory

/-! ### Masks -/

theorem mask_nth {w : World F G} {n i : Nat} {c0 c : Selector F G} {vs : List F} {Q : F → Prop}
    (hd : MaskDrawn w n c0 c) (hl : vs.length = n) (hi : i < n)
    (h : ∀ g, ∃ t m, selDraw w.sel w.half w.ninety w.showProgress n { sel := c0, rng := g } = .ok () t ∧
      t.sel.selection = some m ∧ SelectsExactly m vs Q ∧ t.rng = g) :
    MaskSelects c i ↔ Nth vs i Q := by
  obtain ⟨g, t, h1, h2⟩ := hd
  obtain ⟨t', m, h3, h4, ⟨h5, h6⟩, -⟩ := h g
  rw [h3] at h1
  cases h1
  rw [h4] at h2
  have hm : i < m.length := by omega
  have hv : i < vs.length := by omega
  have := h6 i hm hv
  unfold MaskSelects Nth
  rw [h2]
  constructor
  · rintro ⟨m', e, hb⟩
    cases e
    rw [bget_of_length (h5.trans hl) hi, List.getElem?_eq_getElem hm] at hb
    exact ⟨_, List.getElem?_eq_getElem hv, this.1 (by simpa using hb)⟩
  · rintro ⟨x, hx, hq⟩
    rw [List.getElem?_eq_getElem hv] at hx
    cases hx
    refine ⟨m, rfl, ?_⟩
    rw [bget_of_length (h5.trans hl) hi, List.getElem?_eq_getElem hm, this.2 hq]

theorem mask_unity {w : World F G} {n i : Nat} {c0 c : Selector F G} (hd : MaskDrawn w n c0 c)
    (hk : c0.kind = .unity) (hi : i < n) : MaskSelects c i := by
  obtain ⟨g, t, h1, h2⟩ := hd
  have := unity_mask (by rw [hk]; rfl) h1
  rw [this] at h2
  refine ⟨_, h2, ?_⟩
  rw [bget_of_length (List.length_replicate ..) hi]
  simp [hi]

/-- Two increasing lists with the same members are equal. -/
theorem sorted_ext : ∀ {l l' : List Nat}, l.Pairwise (· < ·) → l'.Pairwise (· < ·) →
    (∀ j, j ∈ l ↔ j ∈ l') → l = l'
  | [], [], _, _, _ => rfl
  | [], b :: l', _, _, h => by simpa using (h b).2 (by simp)
  | a :: l, [], _, _, h => by simpa using (h a).1 (by simp)
  | a :: l, b :: l', h1, h2, h => by
    rw [List.pairwise_cons] at h1 h2
    have hab : a = b := by
      rcases List.mem_cons.1 ((h a).1 (by simp)) with e | e
      · exact e
      · rcases List.mem_cons.1 ((h b).2 (by simp)) with e' | e'
        · exact e'.symm
        · have := h2.1 a e; have := h1.1 b e'; omega
    subst hab
    rw [sorted_ext h1.2 h2.2 fun j => ⟨fun hj => ?_, fun hj => ?_⟩]
    · rcases List.mem_cons.1 ((h j).1 (List.mem_cons_of_mem _ hj)) with e | e
      · have := h1.1 j hj; omega
      · exact e
    · rcases List.mem_cons.1 ((h j).2 (List.mem_cons_of_mem _ hj)) with e | e
      · have := h2.1 j hj; omega
      · exact e

/-- A selection that compares values raises if it was given none. -/
theorem unfed_raises {w : World F G} {n : Nat} {c : Selector F G} {g : G} {t : SelSt F G}
    (hk : c.kind = .box ∨ c.kind = .lower ∨ c.kind = .upper ∨ c.kind = .soft ∨ c.kind = .distance ∨
      c.kind = .galactic)
    (h1 : c.data.obsValue = none) (h2 : c.data.distance = none) (h3 : c.data.luminosity = none)
    (h4 : c.data.flux = none) (h5 : c.data.spatial = none) :
    selDraw w.sel w.half w.ninety w.showProgress n { sel := c, rng := g } ≠ .ok () t := by
  have hv : ∀ v, chosenValues c.data ≠ .ok (some v) := by
    intro v hv
    unfold chosenValues at hv
    rw [h1, h2, h3, h4] at hv
    revert hv
    generalize c.data.useDistance = b1, c.data.useObs = b2, c.data.useLuminosity = b3,
      c.data.useFlux = b4
    cases b1 <;> cases b2 <;> cases b3 <;> cases b4 <;> exact fun hv => by cases hv
  have hn : ∀ v vs, chosenValues c.data = .ok v → needArray v ≠ .ok vs := by
    intro v vs e1 e2
    cases v with
    | none => cases e2
    | some v => exact hv v e1
  intro h
  unfold selDraw at h
  rcases hk with hk | hk | hk | hk | hk | hk <;>
  simp only [bind_ok_iff, get_apply, EStateM.Result.ok.injEq, hk, h5, liftE_ok_iff, raise] at h
  · obtain ⟨_, _, ⟨rfl, rfl⟩, h⟩ := h
    simp only [hk, bind_ok_iff, liftE_ok_iff] at h
    obtain ⟨v, _, ⟨e1, rfl⟩, _, _, _, vs, _, ⟨e2, -⟩, _⟩ := h
    exact hn _ _ e1 e2
  · obtain ⟨_, _, ⟨rfl, rfl⟩, h⟩ := h
    simp only [hk, bind_ok_iff, liftE_ok_iff] at h
    obtain ⟨v, _, ⟨e1, rfl⟩, _, _, _, vs, _, ⟨e2, -⟩, _⟩ := h
    exact hn _ _ e1 e2
  · obtain ⟨_, _, ⟨rfl, rfl⟩, h⟩ := h
    simp only [hk, bind_ok_iff, liftE_ok_iff] at h
    obtain ⟨v, _, ⟨e1, rfl⟩, _, _, _, vs, _, ⟨e2, -⟩, _⟩ := h
    exact hn _ _ e1 e2
  · obtain ⟨_, _, ⟨rfl, rfl⟩, h⟩ := h
    simp only [hk, bind_ok_iff, liftE_ok_iff] at h
    obtain ⟨v, _, ⟨e1, rfl⟩, _, _, _, vs, _, ⟨e2, -⟩, _⟩ := h
    exact hn _ _ e1 e2
  · obtain ⟨_, _, ⟨rfl, rfl⟩, h⟩ := h
    simp only [hk, h5] at h
    cases h
  · obtain ⟨_, _, ⟨rfl, rfl⟩, h⟩ := h
    simp only [hk, h5] at h
    cases h

/-! ### Sections -/

section sections
variable {half : F} {C : Conv F} {names : SelCls F → String → Bool} {look : SelFlags → SelFlags}
  {q : CSel F} {K : Classes F G}

theorem isNumber_unique {v : PVal F} {x z : F} (h : IsNumber C v x) (h' : IsNumber C v z) : x = z := by
  rw [← float_iff] at h h'
  rw [h] at h'
  cases h'
  rfl

/-- A selector that was read has the parameters of its section. -/
theorem param_read (hK : Packaged K) {cls n : String} {ps rest : Dict (PVal F)} {dc : ParamDecl F}
    {w : PVal F} {x : F}
    (hs : SelSection (builtins half) C names look (.dict ((cls, .dict ps) :: rest)) q)
    (hdc : ∃ k, Dict.get? (builtins half).sels cls = some k ∧ Dict.get? k.params n = some dc ∧
      names k n = true)
    (hg : Dict.get? ps n = some w) (hx : IsNumber C w x) (d' : ParamDecl F) :
    outcome (paramGet d' n (K.selector q).params) = .ok x := by
  obtain ⟨p, ps', rest', S, h1, h2, h3, -, -, h4⟩ := hs
  have h1' := h1
  injection h1' with h1'
  injection h1' with h5 h6
  injection h5 with h7 h8
  subst h7 h8
  have hps : ps' = ps := by
    rcases h2 with e | ⟨e, -⟩
    · injection e with e; exact e.symm
    · cases e
  subst hps
  obtain ⟨k, k1, k2, k3⟩ := hdc
  rw [h3] at k1
  cases k1
  obtain ⟨z, z1, -, z3⟩ := h4.given n w dc hg (by rw [if_pos k3, k2])
  rw [outcome_paramGet]
  show (match ((Dict.get? (K.assigned q.cls (truthOf q.obj)).storage n).join).or d'.default with
    | some v => Except.ok v
    | none => Except.error Err.assertion) = _
  rw [hK.values, truthOf_get? _ h4.once, z3, isNumber_unique hx z1]
  rfl

theorem section_cls {cls : String} {p : PVal F} {rest : Dict (PVal F)}
    (hs : SelSection (builtins half) C names look (.dict ((cls, p) :: rest)) q) : q.cls = cls := by
  obtain ⟨p', ps', rest', S, h1, -⟩ := hs
  injection h1 with h1
  injection h1 with h5 h6
  injection h5 with h7 h8
  exact h7.symm

/-- The parameters that bounds and boxes read are declared in their own class statements. -/
theorem own_params (half : F) : ∀ cls n d, (cls, n, d) ∈ [("BoxSelection", "vmin", declBox),
      ("BoxSelection", "vmax", declBox), ("LowerBound", "boundary", declBoundary),
      ("UpperBound", "boundary", declBoundary)] →
    ∃ k, Dict.get? (builtins half).sels cls = some k ∧ Dict.get? k.params n = some d ∧ n ∈ k.own := by
  intro cls n d h
  rw [builtins_sels]
  simp only [List.mem_cons, List.not_mem_nil, or_false, Prod.mk.injEq] at h
  rcases h with ⟨rfl, rfl, rfl⟩ | ⟨rfl, rfl, rfl⟩ | ⟨rfl, rfl, rfl⟩ | ⟨rfl, rfl, rfl⟩ <;>
  simp [Dict.get?, Dict.keys, asSel, classParams, ownParams, bSelection, bBox, bLower, bUpper,
    declBox, declBoundary]

theorem demands_mask (hK : Packaged K) {v : PVal F} {Q : F → Prop}
    (hs : SelSection (builtins half) C names look v q) (hn : ∀ k n, n ∈ k.own → names k n = true)
    (hD : Demands C v Q) {w : World F G} {n i : Nat} {c0 c : Selector F G} {vs : List F}
    (hd : MaskDrawn w n c0 c) (hset : SameSettings c0 (K.selector q))
    (hsrc : source c0.data = some (some vs)) (hl : vs.length = n) (hi : i < n) :
    MaskSelects c i ↔ Nth vs i Q := by
  have hkind : ∀ k, (q.cls, k) ∈ builtinKind (F := F) (G := G) → c0.kind = k := by
    intro k hk
    rw [hset.1]
    exact hK.kind _ _ hk
  have hpar : ∀ {n' : String} {d : ParamDecl F} {x : F},
      outcome (paramGet d n' (K.selector q).params) = .ok x →
      outcome (paramGet d n' c0.params) = .ok x := by
    intro n' d x h
    rw [hset.2.1]; exact h
  have hdecl : ∀ cls n d, (cls, n, d) ∈ [("BoxSelection", "vmin", declBox),
      ("BoxSelection", "vmax", declBox), ("LowerBound", "boundary", declBoundary),
      ("UpperBound", "boundary", declBoundary)] →
      ∃ k, Dict.get? (builtins half).sels cls = some k ∧ Dict.get? k.params n = some d ∧
        names k n = true := by
    intro cls n d h
    obtain ⟨k, k1, k2, k3⟩ := own_params half cls n d h
    exact ⟨k, k1, k2, hn k n k3⟩
  cases hD with
  | lower ps rest x b hg hx =>
    refine mask_nth hd hl hi fun g => C05_lower _ _ _ _ { sel := c0, rng := g } n vs b
      (hkind _ (by rw [section_cls hs]; simp [builtinKind])) hsrc
      (hpar (param_read hK hs (hdecl _ _ _ (by simp; rfl)) hg hx _))
  | upper ps rest x b hg hx =>
    refine mask_nth hd hl hi fun g => C05_upper _ _ _ _ { sel := c0, rng := g } n vs b
      (hkind _ (by rw [section_cls hs]; simp [builtinKind])) hsrc
      (hpar (param_read hK hs (hdecl _ _ _ (by simp; rfl)) hg hx _))
  | box ps rest x z lo hi' h1 h2 h3 h4 =>
    refine mask_nth hd hl hi fun g => C05_box _ _ _ _ { sel := c0, rng := g } n vs lo hi'
      (hkind _ (by rw [section_cls hs]; simp [builtinKind])) hsrc
      (hpar (param_read hK hs (hdecl _ _ _ (by simp; rfl)) h1 h3 _))
      (hpar (param_read hK hs (hdecl _ _ _ (by simp; rfl)) h2 h4 _))
  | unity p rest =>
    have := mask_unity (i := i) hd (hkind _ (by rw [section_cls hs]; simp [builtinKind])) hi
    have hv : i < vs.length := by omega
    exact ⟨fun _ => ⟨_, List.getElem?_eq_getElem hv, trivial⟩, fun _ => this⟩

theorem demands_cls {v : PVal F} {Q : F → Prop}
    (hs : SelSection (builtins half) C names look v q) (hD : Demands C v Q) :
    q.cls ∈ ["LowerBound", "UpperBound", "BoxSelection", "UnitySelection"] := by
  cases hD <;> rw [section_cls hs] <;> simp

theorem fluxDemands_mask (hK : Packaged K) {v : PVal F} {Q : F → Prop}
    (hs : SelSection (builtins half) C (fun _ _ => true) look v q)
    (hD : FluxDemands C v Q) {w : World F G} {n i : Nat} {c0 c : Selector F G} {vs : List F}
    (hd : MaskDrawn w n c0 c) (hset : SameSettings c0 (K.selector q))
    (hsrc : source c0.data = some (some vs)) (hl : vs.length = n) (hi : i < n) :
    MaskSelects c i ↔ Nth vs i Q := by
  cases hD with
  | other h => exact demands_mask hK hs (fun _ _ _ => rfl) h hd hset hsrc hl hi
  | hard ps rest x b hg hx =>
    obtain ⟨k, k1, k2⟩ := C64_selection_declarations half "HardFluxSelection" "boundary" declBoundary
      (by simp)
    refine mask_nth hd hl hi fun g => C05_lower _ _ _ _ { sel := c0, rng := g } n vs b ?_ hsrc ?_
    · show c0.kind = _
      rw [hset.1]
      exact hK.kind _ _ (by rw [section_cls hs]; simp [builtinKind])
    · show outcome (paramGet _ _ c0.params) = _
      rw [hset.2.1]
      exact param_read hK hs ⟨k, k1, k2, rfl⟩ hg hx _

theorem spaceDemands_mask (hK : Packaged K) {v : PVal F} {Q : F → F → Prop} {w : World F G}
    (hs : SelSection (builtins half) C (fun _ _ => true) look v q)
    (hD : SpaceDemands C w.sel.neg v Q) {n i : Nat} {c0 c : Selector F G} {ds gal : List F}
    (hd : MaskDrawn w n c0 c) (hset : SameSettings c0 (K.selector q))
    (hsp : c0.data.spatial = some { distances := ds, galB := gal }) (hl : ds.length = n)
    (hg : gal.length = n) (hi : i < n) :
    MaskSelects c i ↔ ∃ x b, ds[i]? = some x ∧ gal[i]? = some b ∧ Q x b := by
  have hd' : ds[i]? = some (ds[i]'(by omega)) := List.getElem?_eq_getElem _
  have hg' : gal[i]? = some (gal[i]'(by omega)) := List.getElem?_eq_getElem _
  cases hD with
  | plane ps rest x l h1 h2 =>
    obtain ⟨k, k1, k2⟩ := C64_selection_declarations half "GalacticPlaneSelection" "b_limit"
      (declBLimit 90) (by simp)
    refine (mask_nth hd hg hi fun g => C10_galactic _ _ _ _ { sel := c0, rng := g } n _ l ?_ hsp ?_).trans ?_
    · show c0.kind = _
      rw [hset.1]
      exact hK.kind _ _ (by rw [section_cls hs]; simp [builtinKind])
    · show outcome (paramGet _ _ c0.params) = _
      rw [hset.2.1]
      exact param_read hK hs ⟨k, k1, k2, rfl⟩ h1 h2 _
    · exact ⟨fun ⟨b, e, hq⟩ => ⟨_, b, hd', e, hq⟩, fun ⟨_, b, _, e, hq⟩ => ⟨b, e, hq⟩⟩
  | distance ps rest x z lo hi' h1 h2 h3 h4 =>
    obtain ⟨k, k1, k2⟩ := C64_selection_declarations half "DistanceSelection" "min_distance"
      declDistance (by simp)
    obtain ⟨l, l1, l2⟩ := C64_selection_declarations half "DistanceSelection" "max_distance"
      declDistance (by simp)
    refine (mask_nth hd hl hi fun g => C10_distance _ _ _ _ { sel := c0, rng := g } n _ lo hi' ?_ hsp
      ?_ ?_).trans ?_
    · show c0.kind = _
      rw [hset.1]
      exact hK.kind _ _ (by rw [section_cls hs]; simp [builtinKind])
    · show outcome (paramGet _ _ c0.params) = _
      rw [hset.2.1]
      exact param_read hK hs ⟨k, k1, k2, rfl⟩ h1 h3 _
    · show outcome (paramGet _ _ c0.params) = _
      rw [hset.2.1]
      exact param_read hK hs ⟨l, l1, l2, rfl⟩ h2 h4 _
    · exact ⟨fun ⟨b, e, hq⟩ => ⟨b, _, e, hg', hq⟩, fun ⟨b, _, e, _, hq⟩ => ⟨b, e, hq⟩⟩

end sections

/-! ### Theorems -/

section main
variable {half : F} {C : Conv F} {rank : String → Nat} {y : CSynth F} {K : Classes F G}
  {at1 : String → Nat} {sel1 : Role → Nat} {code1 : Nat → SamplerCode F G} {s s' : SurvSt F G}
  {d e : Dict (PVal F)} {P : Population F} {gal : List F}

/-- A selection that is missing, or has a definite demand, in terms of its mask. -/
theorem flux_mask (hD : Describes (builtins half) C d y) (hK : Packaged K)
    {w : World F G} {n i : Nat} {c0 c : Selector F G} {vs : List F} (hd : MaskDrawn w n c0 c)
    (hset : SameSettings c0 (K.selector (y.fluxSel.getD unitySel))) (hv : c0.data.flux = some vs)
    (hl : vs.length = n) (hi : i < n) :
    (∀ v Q, Dict.get? d "flux selection" = some v → FluxDemands C v Q →
      (MaskSelects c i ↔ Nth vs i Q)) ∧
    (Dict.get? d "flux selection" = none ∨ Dict.get? d "flux selection" = some .none →
      MaskSelects c i) := by
  rcases hD.flux with ⟨h1, h2⟩ | ⟨v', q, h1, h2, h3⟩
  · refine ⟨?_, fun _ => ?_⟩
    · intro v Q hv' hQ
      rcases h1 with h1 | h1 <;> rw [h1] at hv' <;> cases hv'
      rcases hQ with _ | h
      cases h
    · rw [h2] at hset
      refine mask_unity hd ?_ hi
      rw [hset.1]
      exact hK.kind _ _ (by simp [builtinKind, unitySel])
  · rw [h2] at hset
    refine ⟨?_, fun h => ?_⟩
    · intro v Q hv' hQ
      rw [h1] at hv'
      cases hv'
      refine fluxDemands_mask hK h3 hQ hd hset ?_ hl hi
      obtain ⟨_, _, _, S, _, _, _, _, h4, _⟩ := h3
      have : c0.data.useFlux = true := by
        rw [hset.2.2.1]
        show q.flags.flux = true
        rw [h4]
      simp [source, this, hv]
    · obtain ⟨_, _, _, _, h4, _⟩ := h3
      rcases h with h | h <;> rw [h1] at h <;> cases h
      cases h4

/-- The same for the selection of a sampler. -/
theorem sampler_mask {k : String} {items : Dict (PVal F)} {q : CSel F} {sec : List (Option String)}
    {x : CSampler F} (hE : EntryRead (builtins half) C k (.dict items) x sec) (hq : q = x.sel)
    (hK : Packaged K) {w : World F G} {n i : Nat} {c0 c : Selector F G} {vs : List F}
    (hd : MaskDrawn w n c0 c) (hset : SameSettings c0 (K.selector q))
    (hv : c0.data.obsValue = some vs) (hl : vs.length = n) (hi : i < n) :
    (∀ v Q, Dict.get? items "selection" = some v → Demands C v Q →
      (MaskSelects c i ↔ Nth vs i Q)) ∧
    (Dict.get? items "selection" = none ∨ Dict.get? items "selection" = some .none →
      MaskSelects c i) := by
  subst hq
  obtain ⟨items', _, _, _, sel, e1, _, _, _, _, _, _, h, e2, _⟩ := hE
  cases e1
  rcases h with ⟨h1, h2⟩ | ⟨v', q, h1, h2, h3⟩
  · rw [h2] at e2
    refine ⟨?_, fun _ => ?_⟩
    · intro v Q hv' hQ
      rcases h1 with h1 | h1 <;> rw [h1] at hv' <;> cases hv'
      cases hQ
    · refine mask_unity hd ?_ hi
      rw [hset.1, e2]
      exact hK.kind _ _ (by simp [builtinKind])
  · rw [h2] at e2
    replace e2 : x.sel = q := e2
    rw [e2] at hset
    refine ⟨?_, fun h => ?_⟩
    · intro v Q hv' hQ
      rw [h1] at hv'
      cases hv'
      refine demands_mask hK h3 (fun _ _ h => by simpa using h) hQ hd hset ?_ hl hi
      have hc := demands_cls h3 hQ
      obtain ⟨_, _, _, S, _, _, h5, _, h4, _⟩ := h3
      obtain ⟨f1, -, -, f3, -⟩ := C64_selection_flags half _ _ h5
      have u1 : c0.data.useFlux = false := by
        rw [hset.2.2.1]
        show q.flags.flux = false
        rw [h4]
        show S.flags0.flux = false
        rw [Bool.eq_false_iff]
        intro hf
        rcases f1.1 hf with hf | hf <;> rw [hf] at hc <;> simp at hc
      have u2 : c0.data.useLuminosity = false := by
        rw [hset.2.2.2.1]
        show q.flags.lum = false
        rw [h4]
        exact f3
      have u3 : c0.data.useObs = true := by
        rw [hset.2.2.2.2.1]
        show q.flags.obs = true
        rw [h4]
      simp [source, u1, u2, u3, hv]
    · obtain ⟨_, _, _, _, h4, _⟩ := h3
      rcases h with h | h <;> rw [h1] at h <;> cases h
      cases h4

/-- **C72.**  A survey of what `from_dict` built detects no object that violates a definite demand
of the dictionary; and if all selections of the dictionary have definite demands, it detects every
object that satisfies them.  `gal` are the galactic latitudes that the spatial distribution
computes for the positions. -/
theorem C72_detects (hd : Proper (.dict d)) (h : fromDict (builtins half) C d = .ok y e)
    (hac : ∀ i c k j, Used y i → Dict.get? y.objs i = some c → (k, j) ∈ c.secs → rank j < rank i)
    (hne : ∀ k c, Used y k → Dict.get? y.objs k = some c → c.name ≠ "")
    (hK : Packaged K) (m : InMemory K y at1 sel1 code1 s) (ho : Orderly s.heap)
    (fuel : Nat) (base : SurveyEnv F G) (args : SurveyArgs F)
    (hP : drawSurvey (K.env (builtins half) fuel base code1 y) (K.synth at1 sel1 y) args s = .ok P s')
    (hgal : (K.spatial y.spatial.cls y.spatial.isRate).galB P.theta.obs P.phi.obs = gal)
    (hlen : gal.length = P.theta.obs.length) (i : Nat) :
    (P.selection[i]? = some true →
      AsDemanded C base.world.sel.neg d P gal (Used y) (nameAt y.objs) i) ∧
    (Definite C base.world.sel.neg d → i < P.selection.length →
      AsDemanded C base.world.sel.neg d P gal (Used y) (nameAt y.objs) i →
      P.selection[i]? = some true) := by
  have hD := C63_reads (builtins half) C d e y hd h
  have hy := read_config half C d e y hd h rank hac
  have hw := wellFormed_of hy m ho hne
  obtain ⟨k1, ⟨cf, f1, f2, f3⟩, ks, ka⟩ := C19_selected_iff _ _ _ _ _ _ hP hw ho.drawn
    (ownSelectors_of hy m) (fresh_of hy m)
  obtain ⟨a1, -⟩ := C16_survey _ _ _ _ _ _ hP hw ho.drawn
  obtain ⟨n, hn, -⟩ := C18_lengths _ _ _ _ _ _ hP
  obtain ⟨n1, n2, -, n4⟩ := hn
  have nf : P.fluxes.obs.length = P.selection.length := by
    rw [n1]; exact (n2 _ (by simp)).1
  have nd : P.distances.obs.length = P.selection.length := by
    rw [n1]; exact (n2 _ (by simp)).1
  have nt : P.theta.obs.length = P.selection.length := by
    rw [n1]; exact (n2 _ (by simp)).1
  replace f2 : SameSettings cf (s.heap.selectors (sel1 .flux)) := f2
  rw [m.flux] at f2
  -- the spatial selection
  have hspace : i < P.selection.length → ∀ q, y.spatSel = some q →
      (∃ v, Dict.get? d "spatial selection" = some v ∧ v ≠ .none) ∧
      ∀ v Q, Dict.get? d "spatial selection" = some v → SpaceDemands C base.world.sel.neg v Q →
        (MaskSelects (s'.heap.selectors (sel1 .spat)) i ↔
          ∃ x b, P.distances.obs[i]? = some x ∧ gal[i]? = some b ∧ Q x b) := by
    intro hi q hq
    obtain ⟨c0, g1, g2, g3⟩ := ks (sel1 .spat) (by
      show (y.spatSel.map fun _ => sel1 .spat) = _
      rw [hq]; rfl)
    rw [m.spat q hq] at g2
    rcases hD.spat with ⟨_, h2⟩ | ⟨v', q', h1, h2, h3⟩
    · rw [hq] at h2; cases h2
    · rw [hq] at h2
      cases h2
      refine ⟨⟨v', h1, ?_⟩, ?_⟩
      · obtain ⟨_, _, _, _, h4, _⟩ := h3
        rw [h4]; simp
      · intro v Q hv hQ
        rw [h1] at hv
        cases hv
        refine spaceDemands_mask hK h3 hQ g1 g2 ?_ nd (hlen.trans nt) hi
        rw [g3, ← hgal]
        rfl
  -- the selections of the samplers
  have hsmp : i < P.selection.length → ∀ k c, Used y k → Dict.get? y.objs k = some c →
      ∃ a E items, Dict.get? P.attrs c.name = some a ∧
        Dict.get? d "auxiliary samplers" = some (.dict E) ∧ Dict.get? E k = some (.dict items) ∧
        (∀ v Q, Dict.get? items "selection" = some v → Demands C v Q →
          (MaskSelects (s'.heap.selectors (sel1 (.of k))) i ↔ Nth a.obs i Q)) ∧
        (Dict.get? items "selection" = none ∨ Dict.get? items "selection" = some .none →
          MaskSelects (s'.heap.selectors (sel1 (.of k))) i) := by
    intro hi k c hk hc
    have hr := (reachFrom_iff hy m).2 ⟨k, hk, rfl⟩
    obtain ⟨c0, g1, g2, g3⟩ := ka _ hr
    have hsl : (s.heap.samplers (at1 k)).selector = sel1 (.of k) := by
      rw [m.smp k c hk hc]; rfl
    rw [hsl] at g1 g2
    rw [m.own k c hk hc] at g2
    -- what the population reports
    obtain ⟨a, ha, o, ho1, ho2⟩ : ∃ a, Dict.get? P.attrs c.name = some a ∧
        ∃ o, (s'.heap.samplers (at1 k)).obsVals = some o ∧ a.obs = o := by
      obtain ⟨r⟩ := drawSurvey_ok hP
      obtain ⟨T, ef⟩ := surveyEff r hw ho.drawn
      obtain ⟨t, o, v1, v2, -⟩ := ef.eff.vals _
        ((ef.drawn _).2 ⟨hr, (fresh_of hy m).samplers _ hr⟩)
      rw [← r.samplers.1] at v1 v2
      refine ⟨_, (a1 c.name _).2 ⟨at1 k, hr, ?_, t, o, v1, v2, rfl⟩, o, v2, rfl⟩
      rw [m.smp k c hk hc]; rfl
    have hal : a.obs.length = P.selection.length := by
      rw [n1]; exact (n4 _ _ ha).1
    rcases hD.samplers with ⟨_, h2, _⟩ | ⟨E, sec, h1, hS⟩
    · rw [h2] at hc; cases hc
    · have hkE : k ∈ Dict.keys E := by
        rw [← hS.keys, ← Dict.get?_isSome_iff, hc]; rfl
      rw [← Dict.get?_isSome_iff, Option.isSome_iff_exists] at hkE
      obtain ⟨x, hx⟩ := hkE
      obtain ⟨c', h3, h4⟩ := hS.entry k x hx
      rw [hc] at h3
      cases h3
      have h4' := h4
      obtain ⟨items, _, _, _, _, hxi, _⟩ := h4'
      subst hxi
      refine ⟨a, E, items, ha, h1, hx, ?_⟩
      exact sampler_mask h4 rfl hK g1 g2 (by rw [g3, ho1, ho2]) hal hi
  have hflux := fun hi => flux_mask (i := i) hD hK f1 f2 f3 nf hi
  have hspatSel : ∀ p, (K.synth at1 sel1 y).spatSel = some p →
      p = sel1 .spat ∧ ∃ q, y.spatSel = some q := by
    intro p hp
    replace hp : (y.spatSel.map fun _ => sel1 .spat) = some p := hp
    cases hq : y.spatSel with
    | none => rw [hq] at hp; cases hp
    | some q => rw [hq] at hp; cases hp; exact ⟨rfl, q, rfl⟩
  have hselAt : ∀ k c, Used y k → Dict.get? y.objs k = some c →
      (s.heap.samplers (at1 k)).selector = sel1 (.of k) := by
    intro k c hk hc
    rw [m.smp k c hk hc]; rfl
  constructor
  · intro hi
    have hil : i < P.selection.length := (List.getElem?_eq_some_iff.1 hi).1
    obtain ⟨m1, m2, m3⟩ := (k1 i true hi).1 rfl
    refine ⟨fun v Q hv hQ => ((hflux hil).1 v Q hv hQ).1 m1, ?_, ?_⟩
    · intro v Q hv hQ
      rcases hD.spat with ⟨h1, _⟩ | ⟨v', q, h1, h2, h3⟩
      · rcases h1 with h1 | h1 <;> rw [h1] at hv <;> cases hv
        cases hQ
      · refine ((hspace hil q h2).2 v Q hv hQ).1 (m2 _ ?_)
        show (y.spatSel.map fun _ => sel1 .spat) = _
        rw [h2]; rfl
    · intro E k items v Q hE hk hEk hv hQ
      obtain ⟨c, hc, -⟩ := hy.sampler k hk
      obtain ⟨a, E', items', g1, g2, g3, g4, -⟩ := hsmp hil k c hk hc
      rw [hE] at g2
      cases g2
      rw [hEk] at g3
      cases g3
      have hnm : nameAt y.objs k = c.name := by unfold nameAt; rw [hc]
      have := m3 _ ((reachFrom_iff hy m).2 ⟨k, hk, rfl⟩)
      rw [hselAt k c hk hc] at this
      exact ⟨a, by rw [hnm]; exact g1, (g4 v Q hv hQ).1 this⟩
  · rintro hdef hil ⟨m1, m2, m3⟩
    have hz := List.getElem?_eq_getElem hil
    rw [hz, (k1 i _ hz).2 ⟨?_, ?_, ?_⟩]
    · cases hv : Dict.get? d "flux selection" with
      | none => exact (hflux hil).2 (.inl hv)
      | some v =>
        rcases hdef.flux v hv with rfl | ⟨Q, hQ⟩
        · exact (hflux hil).2 (.inr hv)
        · exact ((hflux hil).1 v Q hv hQ).2 (m1 v Q hv hQ)
    · intro p hp
      obtain ⟨rfl, q, hq⟩ := hspatSel p hp
      obtain ⟨⟨v, hv, hvn⟩, h2⟩ := hspace hil q hq
      rcases hdef.space v hv with rfl | ⟨Q, hQ⟩
      · exact absurd rfl hvn
      · exact (h2 v Q hv hQ).2 (m2 v Q hv hQ)
    · intro j hj
      obtain ⟨k, hk, rfl⟩ := (reachFrom_iff hy m).1 hj
      obtain ⟨c, hc, -⟩ := hy.sampler k hk
      rw [hselAt k c hk hc]
      obtain ⟨a, E, items, g1, g2, g3, g4, g5⟩ := hsmp hil k c hk hc
      cases hv : Dict.get? items "selection" with
      | none => exact g5 (.inl hv)
      | some v =>
        rcases hdef.samplers E k items v g2 g3 hv with rfl | ⟨Q, hQ⟩
        · exact g5 (.inr hv)
        · obtain ⟨a', ha', hq'⟩ := m3 E k items v Q g2 hk g3 hv hQ
          have hnm : nameAt y.objs k = c.name := by unfold nameAt; rw [hc]
          rw [hnm, g1] at ha'
          cases ha'
          exact (g4 v Q hv hQ).2 hq'

/-- The distance selection in memory is drawn as it was made: nothing gives it values. -/
theorem distance_drawn (hd : Proper (.dict d)) (h : fromDict (builtins half) C d = .ok y e)
    (hac : ∀ i c k j, Used y i → Dict.get? y.objs i = some c → (k, j) ∈ c.secs → rank j < rank i)
    (hne : ∀ k c, Used y k → Dict.get? y.objs k = some c → c.name ≠ "")
    (m : InMemory K y at1 sel1 code1 s) (ho : Orderly s.heap)
    (fuel : Nat) (base : SurveyEnv F G) (args : SurveyArgs F)
    (hP : drawSurvey (K.env (builtins half) fuel base code1 y) (K.synth at1 sel1 y) args s = .ok P s') :
    MaskDrawn base.world P.nDetections (K.selector (y.distSel.getD unitySel))
      (s'.heap.selectors (K.synth at1 sel1 y).distSel) := by
  have hy := read_config half C d e y hd h rank hac
  have hw := wellFormed_of hy m ho hne
  have h1 : s.heap.selectors (K.synth at1 sel1 y).distSel = K.selector (y.distSel.getD unitySel) :=
    m.dist
  have := C60_distance_mask _ _ _ _ _ _ hP hw ho.drawn (ownSelectors_of hy m) (by rw [h1]; rfl)
  rw [h1] at this
  exact this

/-- **C72 (known distances).**  If the dictionary has no distance selection, or the one that
selects everything, all detected objects have known distances: those they were drawn at. -/
theorem C72_known (hd : Proper (.dict d)) (h : fromDict (builtins half) C d = .ok y e)
    (hac : ∀ i c k j, Used y i → Dict.get? y.objs i = some c → (k, j) ∈ c.secs → rank j < rank i)
    (hne : ∀ k c, Used y k → Dict.get? y.objs k = some c → c.name ≠ "")
    (hK : Packaged K) (m : InMemory K y at1 sel1 code1 s) (ho : Orderly s.heap)
    (fuel : Nat) (base : SurveyEnv F G) (args : SurveyArgs F)
    (hP : drawSurvey (K.env (builtins half) fuel base code1 y) (K.synth at1 sel1 y) args s = .ok P s')
    (hq : Dict.get? d "distance selection" = none ∨ Dict.get? d "distance selection" = some .none ∨
      ∃ p rest, Dict.get? d "distance selection" = some (.dict (("UnitySelection", p) :: rest))) :
    P.unknownIdx = [] ∧ P.knownDistances.length = P.nDetections ∧
    ∀ (k : Nat) (x : F), P.knownDistances[k]? = some x →
      ∃ i, IsNth P.selection k i ∧ P.distances.obs[i]? = some x := by
  have hm := distance_drawn hd h hac hne m ho fuel base args hP
  have hD := C63_reads (builtins half) C d e y hd h
  have hcls : (y.distSel.getD unitySel).cls = "UnitySelection" := by
    rcases hD.dist with ⟨_, h2⟩ | ⟨v', q, h1, h2, h3⟩
    · rw [h2]; rfl
    · rw [h2]
      rcases hq with hq | hq | ⟨p, rest, hq⟩
      · rw [hq] at h1; cases h1
      · rw [hq] at h1
        cases h1
        obtain ⟨_, _, _, _, h4, _⟩ := h3
        cases h4
      · rw [hq] at h1
        cases h1
        exact section_cls h3
  have hkind : (K.selector (y.distSel.getD unitySel)).kind = .unity := by
    show K.kind (y.distSel.getD unitySel).cls = _
    rw [hcls]
    exact hK.kind _ _ (by simp [builtinKind])
  obtain ⟨p1, p2, p3, p4, p5, ⟨mm, p6, p6'⟩, p7, p8⟩ := C20_partition _ _ _ _ _ _ hP
  obtain ⟨g, t, t1, t2⟩ := hm
  have hu := unity_mask (by rw [hkind]; rfl) t1
  have hmm : mm = List.replicate P.nDetections true := by
    rw [t2, hu] at p6
    exact (Option.some.inj p6).symm
  have hall : ∀ j, j ∈ P.knownIdx ↔ j < P.nDetections := by
    intro j
    rw [p6', hmm, List.getElem?_replicate]
    split <;> simp_all
  have hrange : P.knownIdx = List.range P.nDetections :=
    sorted_ext p1 List.pairwise_lt_range (by intro j; rw [hall]; simp)
  refine ⟨?_, by rw [p7, hrange]; simp, ?_⟩
  · rw [List.eq_nil_iff_forall_not_mem]
    intro j hj
    exact p4 j ⟨(hall j).2 ((p3 j).1 (.inr hj)), hj⟩
  · intro k x hx
    obtain ⟨j, i, h1, h2, h3⟩ := p8 k x hx
    rw [hrange] at h1
    obtain ⟨hk, e⟩ := List.getElem?_eq_some_iff.1 h1
    simp only [List.getElem_range] at e
    subst e
    exact ⟨i, h2, h3⟩

/-- **C72 (violated: distance selections).**  A dictionary may ask that distances are known only
for objects within some bounds.  No survey with such a distance selection returns: the selection
is never given the distances, population_synth.py:1348. -/
theorem C72_violated_distance (hd : Proper (.dict d)) (h : fromDict (builtins half) C d = .ok y e)
    (hac : ∀ i c k j, Used y i → Dict.get? y.objs i = some c → (k, j) ∈ c.secs → rank j < rank i)
    (hne : ∀ k c, Used y k → Dict.get? y.objs k = some c → c.name ≠ "")
    (hK : Packaged K) (m : InMemory K y at1 sel1 code1 s) (ho : Orderly s.heap)
    (fuel : Nat) (base : SurveyEnv F G) (args : SurveyArgs F)
    (cls : String) (p : PVal F) (rest : Dict (PVal F))
    (hq : Dict.get? d "distance selection" = some (.dict ((cls, p) :: rest)))
    (hc : cls ∈ ["BoxSelection", "LowerBound", "UpperBound", "SoftSelection", "HardFluxSelection",
      "SoftFluxSelection", "GalacticPlaneSelection", "DistanceSelection"]) :
    ∀ P s', drawSurvey (K.env (builtins half) fuel base code1 y) (K.synth at1 sel1 y) args s
      ≠ .ok P s' := by
  intro P s' hP
  obtain ⟨g, t, t1, -⟩ := distance_drawn hd h hac hne m ho fuel base args hP
  have hD := C63_reads (builtins half) C d e y hd h
  have hcls : (y.distSel.getD unitySel).cls = cls := by
    rcases hD.dist with ⟨h1, _⟩ | ⟨v', q, h1, h2, h3⟩
    · rcases h1 with h1 | h1 <;> rw [hq] at h1 <;> cases h1
    · rw [h2]
      rw [hq] at h1
      cases h1
      exact section_cls h3
  have hkind : ∀ k, (cls, k) ∈ builtinKind (F := F) (G := G) →
      (K.selector (y.distSel.getD unitySel)).kind = k := by
    intro k hk
    show K.kind (y.distSel.getD unitySel).cls = _
    rw [hcls]
    exact hK.kind _ _ hk
  refine unfed_raises (c := K.selector (y.distSel.getD unitySel)) ?_ rfl rfl rfl rfl rfl t1
  simp only [List.mem_cons, List.not_mem_nil, or_false] at hc
  rcases hc with rfl | rfl | rfl | rfl | rfl | rfl | rfl | rfl
  · exact .inl (hkind _ (by simp [builtinKind]))
  · exact .inr (.inl (hkind _ (by simp [builtinKind])))
  · exact .inr (.inr (.inl (hkind _ (by simp [builtinKind]))))
  · exact .inr (.inr (.inr (.inl (hkind _ (by simp [builtinKind])))))
  · exact .inr (.inl (hkind _ (by simp [builtinKind])))
  · exact .inr (.inr (.inr (.inl (hkind _ (by simp [builtinKind])))))
  · exact .inr (.inr (.inr (.inr (.inr (hkind _ (by simp [builtinKind]))))))
  · exact .inr (.inr (.inr (.inr (.inl (hkind _ (by simp [builtinKind]))))))

end main

end Popsynth
