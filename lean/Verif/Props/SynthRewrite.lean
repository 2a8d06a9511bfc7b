import Verif.Props.SynthFile
import Verif.Props.Rebuild

/-!
# Writing a synth that was read (C91)
-/

set_option autoImplicit false
set_option linter.unusedSectionVars false

namespace Popsynth

open Spec

variable {F : Type} [∀ n, OfNat F n] [LE F] [DecidableLE F]

/-! ### Documents that are written alike -/

theorem sort_perm {d d' : Dict (PVal F)} (hn : (Dict.keys d).Nodup)
    (h : (d.map fun p => (p.1, sortVal p.2)).Perm (d'.map fun p => (p.1, sortVal p.2))) :
    sortVal (.dict d) = sortVal (.dict d') := by
  rw [sortVal, sortVal]
  congr 1
  have hp : (sortItems (sortValues d)).Perm (sortItems (sortValues d')) := by
    rw [sortValues_eq, sortValues_eq]
    exact ((perm_sortItems _).trans h).trans (perm_sortItems _).symm
  have hk : (Dict.keys (sortItems (sortValues d))).Nodup := (keys_sorted d).nodup_iff.2 hn
  refine hp.eq_of_pairwise (le := fun a b => a.1 ≤ b.1) ?_ (sorted_sortItems _) (sorted_sortItems _)
  intro a b ha hb h1 h2
  have e : a.1 = b.1 := String.le_antisymm h1 h2
  have hb' := hp.mem_iff.2 hb
  have g1 := Dict.get?_of_mem hk (k := a.1) (v := a.2) ha
  have g2 := Dict.get?_of_mem hk (k := b.1) (v := b.2) hb'
  rw [e, g2] at g1
  exact Prod.ext e (Option.some.inj g1).symm

/-- The same recorded values, and nothing stored twice. -/
structure LikeObj (o o' : Obj F) : Prop where
  once : (Dict.keys o'.storage).Nodup
  same : ∀ k v, (k, v) ∈ truthOf o' ↔ (k, v) ∈ truthOf o

theorem mem_truth {o : Obj F} (h : (Dict.keys o.storage).Nodup) (k : String) (v : F) :
    (k, v) ∈ truthOf o ↔ Dict.get? o.storage k = some (some v) := by
  have h1 := truthOf_get? o h k
  constructor
  · intro hm
    rw [Dict.get?_of_mem (nodup_truthOf o h) hm] at h1
    cases hg : Dict.get? o.storage k with
    | none => rw [hg] at h1; cases h1
    | some w => rw [hg] at h1; rw [show w = some v from h1.symm]
  · intro hg
    rw [hg] at h1
    exact Dict.mem_of_get? h1

theorem LikeObj.of {o o1 o' : Obj F} (h1 : (Dict.keys o1.storage).Nodup)
    (h2 : (Dict.keys o'.storage).Nodup) (ht : truthOf o1 = truthOf o) (hv : SameValues o1 o') :
    LikeObj o o' := by
  refine ⟨h2, fun k v => ?_⟩
  rw [mem_truth h2, ← ht, mem_truth h1, hv k]

theorem LikeObj.sort {o o' : Obj F} (hn : (Dict.keys o.storage).Nodup) (h : LikeObj o o') :
    sortVal (.dict (pvTruth o')) = sortVal (.dict (pvTruth o)) := by
  refine (sort_perm ?_ ?_).symm
  · rw [keys_pvTruth]; exact nodup_truthOf o hn
  · unfold pvTruth
    rw [List.map_map, List.map_map]
    refine List.Perm.map _ ?_
    refine (List.perm_ext_iff_of_nodup ?_ ?_).2 fun p => ?_
    · exact List.Nodup.of_map _ (nodup_truthOf o hn)
    · exact List.Nodup.of_map _ (nodup_truthOf o' h.once)
    · exact (h.same p.1 p.2).symm

theorem LikeObj.params {decls : Dict (ParamDecl F)} {o o' : Obj F} (h : LikeObj o o')
    (hp : ParamsOk decls o) : ParamsOk decls o' :=
  ⟨h.once, fun k v hm => hp.2 k v ((h.same k v).1 hm)⟩

theorem LikeObj.numbers {py : F → Bool} {o o' : Obj F} (h : LikeObj o o') (hp : PyNumbers py o) :
    PyNumbers py o' := fun k v hm => hp k v ((h.same k v).1 hm)

/-- The same distribution. -/
def LikeDist (c c' : CDist F) : Prop := c'.cls = c.cls ∧ c'.isRate = c.isRate ∧ LikeObj c.obj c'.obj

/-- The same selector. -/
def LikeSel (R : Registry F) (s s' : CSel F) : Prop := s'.cls = s.cls ∧ LikeObj s.obj s'.obj ∧
  ∀ k, Dict.get? R.sels s.cls = some k → k.usesFlags = true → s'.flags = s.flags

/-- The same sampler, with secondaries addressed by name. -/
structure LikeSampler (R : Registry F) (c c' : CSampler F) : Prop where
  cls : c'.cls = c.cls
  name : c'.name = c.name
  obsName : c'.obsName = c.obsName
  observed : c'.observed = c.observed
  obj : LikeObj c.obj c'.obj
  reserved : ∀ n ∈ Spec.reserved, n ∉ Dict.keys c'.obj.storage
  sel : LikeSel R c.sel c'.sel
  secs : c'.secs = c.secs.map fun p => (p.1, p.1)

/-- The same configuration, with samplers addressed by name, in any order. -/
structure LikeSynth (R : Registry F) (y y' : CSynth F) : Prop where
  seed : y'.seed = y.seed
  spatial : LikeDist y.spatial y'.spatial
  lum : Opt LikeDist y.lum y'.lum
  flux : Opt (LikeSel R) y.fluxSel y'.fluxSel
  dist : Opt (LikeSel R) y.distSel y'.distSel
  spat : Opt (LikeSel R) y.spatSel y'.spatSel
  aux : y'.aux.Perm (y.aux.map fun p => (p.1, p.1))
  derived : y'.derived = y.derived.map (nameAt y.objs)
  sampler : ∀ i c, Used y i → Dict.get? y.objs i = some c →
    ∃ c', Dict.get? y'.objs c.name = some c' ∧ LikeSampler R c c'

variable {R : Registry F} {rank : String → Nat} {y y' : CSynth F}

theorem LikeSel.ok {f : SelFlags → SelFlags} {s s' : CSel F} (h : LikeSel R s s') (hs : SelOk R f s) :
    SelOk R f s' := by
  obtain ⟨k, h1, h2, h3, h4⟩ := hs
  refine ⟨k, by rw [h.1, h1], h2, h.2.1.params h3, fun hu => ?_⟩
  rw [h.2.2 k h1 hu, h4 hu]

theorem LikeSel.own {s s' : CSel F} (h : LikeSel R s s') (hs : OwnParams R s) : OwnParams R s' := by
  intro k hk n v hm
  rw [h.1] at hk
  exact hs k hk n v ((h.2.1.same n v).1 hm)

theorem LikeSel.sort {s s' : CSel F} (h : LikeSel R s s') (hn : (Dict.keys s.obj.storage).Nodup) :
    sortVal (selDict s') = sortVal (selDict s) := by
  unfold selDict
  rw [sortVal, sortVal]
  simp only [sortValues, h.1, h.2.1.sort hn]

theorem LikeDist.sort {c c' : CDist F} (h : LikeDist c c') (hn : (Dict.keys c.obj.storage).Nodup) :
    sortVal (.dict (distDict c')) = sortVal (.dict (distDict c)) := by
  unfold distDict
  rw [sortVal, sortVal]
  simp only [sortValues, h.1, h.2.2.sort hn]

theorem LikeDist.spatial {c c' : CDist F} (h : LikeDist c c') (hn : (Dict.keys c.obj.storage).Nodup)
    (hc : c.cls ≠ "is_rate") :
    sortVal (.dict (spatialDict R c')) = sortVal (.dict (spatialDict R c)) := by
  unfold spatialDict
  rw [h.1]
  split
  · have e : ∀ b : CDist F, b.cls ≠ "is_rate" → Dict.set (distDict b) "is_rate" b.isRate =
        [(b.cls, .dict (pvTruth b.obj)), ("is_rate", b.isRate)] := fun b hb => by
      simp [Dict.set, distDict, hb]
    rw [e c hc, e c' (by rw [h.1]; exact hc), sortVal, sortVal]
    simp only [sortValues, h.1, h.2.1, h.2.2.sort hn]
  · exact h.sort hn

theorem LikeSampler.sort {c c' : CSampler F} (h : LikeSampler R c c') (hs : SamplerOk R c) :
    sortVal (entryOf c' c'.cls) = sortVal (entryOf c c.cls) := by
  obtain ⟨k, -, -, ⟨hn, -⟩, hr, ⟨_, _, _, ⟨hsn, -⟩, -⟩, -⟩ := hs
  rw [entryOf_eq c _ hn hr, entryOf_eq c' _ h.obj.once h.reserved]
  refine (sort_perm ?_ ?_).symm
  · have hr' : ∀ n ∈ Spec.reserved, n ∉ Dict.keys (pvTruth c.obj) := by
      intro n hm hk
      rw [keys_pvTruth] at hk
      exact hr n hm (keys_truthOf_sub _ _ hk)
    have hk : (Dict.keys (pvTruth c.obj)).Nodup := by rw [keys_pvTruth]; exact nodup_truthOf _ hn
    have a1 := hr' "type" (by decide)
    have a2 := hr' "observed" (by decide)
    have a3 := hr' "secondary" (by decide)
    have a4 := hr' "selection" (by decide)
    unfold entryItems
    simp only [Dict.keys, List.map_cons, List.map_append, List.map_nil] at *
    refine List.nodup_cons.2 ⟨?_, List.nodup_cons.2 ⟨?_, List.Nodup.append hk (by simp) ?_⟩⟩
    · simp [a1]
    · simp [a2]
    · intro x hx hx'
      simp only [List.mem_cons, List.not_mem_nil, or_false] at hx'
      rcases hx' with rfl | rfl
      · exact a3 hx
      · exact a4 hx
  · unfold entryItems
    simp only [List.map_cons, List.map_append, List.map_nil]
    rw [h.cls, h.observed, h.sel.sort hsn, h.secs]
    refine .cons _ (.cons _ (.append ?_ ?_))
    · unfold pvTruth
      rw [List.map_map, List.map_map]
      refine List.Perm.map _ ((List.perm_ext_iff_of_nodup ?_ ?_).2 fun p => ?_)
      · exact List.Nodup.of_map _ (nodup_truthOf _ hn)
      · exact List.Nodup.of_map _ (nodup_truthOf _ h.obj.once)
      · exact (h.obj.same p.1 p.2).symm
    · simp [List.map_map, Function.comp_def]

/-! ### What is used -/

theorem LikeSynth.root_of (hy : Config R rank y) (h : LikeSynth R y y') {j : String}
    (hj : Root y' j) : ∃ i c, Root y i ∧ Dict.get? y.objs i = some c ∧ c.name = j := by
  rcases hj with ⟨k, hk⟩ | hd
  · obtain ⟨p, hp, e⟩ := List.mem_map.1 (h.aux.mem_iff.1 hk)
    cases e
    have hr : Root y p.2 := .inl ⟨p.1, hp⟩
    obtain ⟨c, hc, -⟩ := hy.sampler p.2 (.root hr)
    exact ⟨p.2, c, hr, hc, (hy.auxKey p.1 p.2 c hp hc).symm⟩
  · rw [h.derived] at hd
    obtain ⟨i, hi, e⟩ := Option.map_eq_some_iff.1 hd
    have hr : Root y i := .inr hi
    obtain ⟨c, hc, -⟩ := hy.sampler i (.root hr)
    rw [nameAt_of_get? hc] at e
    exact ⟨i, c, hr, hc, e⟩

theorem LikeSynth.used_of (hy : Config R rank y) (h : LikeSynth R y y') {j : String}
    (hj : Used y' j) : ∃ i c, Used y i ∧ Dict.get? y.objs i = some c ∧ c.name = j := by
  induction hj with
  | root hr =>
    obtain ⟨i, c, h1, h2, h3⟩ := h.root_of hy hr
    exact ⟨i, c, .root h1, h2, h3⟩
  | @sec i j k c' _ hc' hm ih =>
    obtain ⟨a, c, ha, hca, rfl⟩ := ih
    obtain ⟨c2, hc2, hl⟩ := h.sampler a c ha hca
    rw [hc'] at hc2
    cases hc2
    rw [hl.secs] at hm
    obtain ⟨q, hq, e⟩ := List.mem_map.1 hm
    cases e
    have hu : Used y q.2 := .sec ha hca hq
    obtain ⟨cq, hcq, -⟩ := hy.sampler q.2 hu
    exact ⟨q.2, cq, hu, hcq, (hy.secKey a c q.1 q.2 cq ha hca hq hcq).symm⟩

theorem LikeSynth.to_used (hy : Config R rank y) (h : LikeSynth R y y') {i : String}
    (hi : Used y i) : ∀ c, Dict.get? y.objs i = some c → Used y' c.name := by
  induction hi with
  | @root i hr =>
    intro c hc
    rcases hr with ⟨k, hk⟩ | hd
    · refine .root (.inl ⟨k, h.aux.mem_iff.2 (List.mem_map.2 ⟨_, hk, ?_⟩)⟩)
      simp only
      rw [← hy.auxKey k i c hk hc]
    · refine .root (.inr ?_)
      rw [h.derived, hd, Option.map_some, nameAt_of_get? hc]
  | @sec i j k c hi hc hm ih =>
    intro cj hcj
    obtain ⟨c', h1, h2⟩ := h.sampler i c hi hc
    refine .sec (ih c hc) h1 (k := k) ?_
    rw [h2.secs]
    refine List.mem_map.2 ⟨_, hm, ?_⟩
    simp only
    rw [← hy.secKey i c k j cj hi hc hm hcj]

/-- The sampler at an address that is used. -/
theorem LikeSynth.at (hy : Config R rank y) (h : LikeSynth R y y') {j : String} {c' : CSampler F}
    (hj : Used y' j) (hc' : Dict.get? y'.objs j = some c') :
    ∃ i c, Used y i ∧ Dict.get? y.objs i = some c ∧ c.name = j ∧ LikeSampler R c c' := by
  obtain ⟨i, c, h1, h2, rfl⟩ := h.used_of hy hj
  obtain ⟨c2, h3, h4⟩ := h.sampler i c h1 h2
  rw [hc'] at h3
  cases h3
  exact ⟨i, c, h1, h2, rfl, h4⟩

open Classical in
/-- The rank of a sampler by its name. -/
noncomputable def nameRank (rank : String → Nat) (y : CSynth F) (n : String) : Nat :=
  if h : ∃ i c, Used y i ∧ Dict.get? y.objs i = some c ∧ c.name = n then rank h.choose else 0

theorem nameRank_eq (hy : Config R rank y) {i : String} {c : CSampler F} (hi : Used y i)
    (hc : Dict.get? y.objs i = some c) : nameRank rank y c.name = rank i := by
  have h : ∃ j c', Used y j ∧ Dict.get? y.objs j = some c' ∧ c'.name = c.name := ⟨i, c, hi, hc, rfl⟩
  unfold nameRank
  rw [dif_pos h]
  obtain ⟨c2, h1, h2, h3⟩ := h.choose_spec
  rw [hy.names _ _ c2 c h1 hi h2 hc h3]

theorem LikeSampler.ok {c c' : CSampler F} (h : LikeSampler R c c') (hs : SamplerOk R c) :
    SamplerOk R c' := by
  obtain ⟨k, h1, h2, h3, -, h5, h6, h7⟩ := hs
  refine ⟨k, by rw [h.cls, h1], ?_, h.obj.params h3, h.reserved, h.sel.ok h5, h.sel.own h6, ?_⟩
  · unfold CtorOk
    rw [h.name, h.obsName, h.observed]
    exact h2
  · rw [h.secs]
    simpa [Dict.keys, List.map_map, Function.comp_def] using h7

theorem LikeSynth.config (hy : Config R rank y) (h : LikeSynth R y y') :
    Config R (nameRank rank y) y' := by
  have dist : ∀ {kind : DistCls F → Bool} {c c' : CDist F}, LikeDist c c' → DistOk R kind c →
      DistOk R kind c' := by
    rintro kind c c' hl ⟨k, h1, h2, h3, h4⟩
    exact ⟨k, by rw [hl.1, h1], h2, h3, hl.2.2.params h4⟩
  have sel : ∀ {f : SelFlags → SelFlags} {a b : Option (CSel F)}, Opt (LikeSel R) a b →
      (∀ s, a = some s → SelOk R f s) → ∀ s, b = some s → SelOk R f s := by
    intro f a b ho hs s e
    subst e
    cases a with
    | none => exact ho.elim
    | some a => exact LikeSel.ok ho (hs a rfl)
  refine ⟨dist h.spatial hy.spatial, ?_, ?_, ?_, sel h.flux hy.flux, sel h.dist hy.dist,
    sel h.spat hy.spat, ?_, ?_, ?_, ?_, ?_, ?_, ?_, ?_, ?_⟩
  · intro hr k hk
    rw [h.spatial.1] at hr hk
    rw [h.spatial.2.1, hy.rate hr k hk]
  · rw [h.spatial.1]; exact hy.notRate
  · intro c e
    have ho := h.lum
    rw [e] at ho
    cases hl : y.lum with
    | none => rw [hl] at ho; exact ho.elim
    | some a =>
      rw [hl] at ho
      obtain ⟨h1, h2⟩ := hy.lum a hl
      refine ⟨dist ho h1, fun k hk => ?_⟩
      rw [ho.1] at hk
      rw [ho.2.1, h2 k hk]
  · intro j hj
    obtain ⟨i, c, h1, h2, rfl⟩ := h.used_of hy hj
    obtain ⟨c', h3, h4⟩ := h.sampler i c h1 h2
    obtain ⟨c2, h5, h6⟩ := hy.sampler i h1
    rw [h2] at h5
    cases h5
    exact ⟨c', h3, h4.ok h6⟩
  · intro i j c c' hi hj hc hc' e
    obtain ⟨_, _, _, _, rfl, l1⟩ := h.at hy hi hc
    obtain ⟨_, _, _, _, rfl, l2⟩ := h.at hy hj hc'
    rw [← l1.name, ← l2.name, e]
  · intro k i c hk hc
    obtain ⟨_, _, _, _, rfl, l1⟩ := h.at hy (.root (.inl ⟨k, hk⟩)) hc
    obtain ⟨p, _, e⟩ := List.mem_map.1 (h.aux.mem_iff.1 hk)
    rw [Prod.mk.injEq] at e
    rw [l1.name, ← e.1, e.2]
  · intro i c k j c' hi hc hm hc'
    obtain ⟨_, _, _, _, rfl, l1⟩ := h.at hy (.sec hi hc hm) hc'
    obtain ⟨_, _, _, _, rfl, l2⟩ := h.at hy hi hc
    rw [l2.secs] at hm
    obtain ⟨p, _, e⟩ := List.mem_map.1 hm
    rw [Prod.mk.injEq] at e
    rw [l1.name, ← e.1, e.2]
  · have h1 : (Dict.keys y'.aux).Perm (Dict.keys (y.aux.map fun p => (p.1, p.1))) := h.aux.map _
    rw [h1.nodup_iff]
    simpa [Dict.keys, List.map_map, Function.comp_def] using hy.auxNodup
  · intro i c k j hi hc hm hr
    obtain ⟨a, ca, ha, hca, rfl, l1⟩ := h.at hy hi hc
    rw [l1.secs] at hm
    obtain ⟨q, hq, e⟩ := List.mem_map.1 hm
    cases e
    obtain ⟨cq, hcq, -⟩ := hy.sampler q.2 (.sec ha hca hq)
    obtain ⟨b, cb, hb, hcb, eb⟩ := h.root_of hy hr
    have := hy.names b q.2 cb cq (.root hb) (.sec ha hca hq) hcb hcq
      (by rw [eb, hy.secKey a ca q.1 q.2 cq ha hca hq hcq])
    subst this
    exact hy.root a ca q.1 _ ha hca hq hb
  · intro k i c hk hc
    obtain ⟨p, hp, e⟩ := List.mem_map.1 (h.aux.mem_iff.1 hk)
    cases e
    obtain ⟨cp, hcp, -⟩ := hy.sampler p.2 (.root (.inl ⟨p.1, hp⟩))
    obtain ⟨a, ca, ha, hca, e, l1⟩ := h.at hy (.root (.inl ⟨_, hk⟩)) hc
    have := hy.names a p.2 ca cp ha (.root (.inl ⟨p.1, hp⟩)) hca hcp
      (by rw [e, ← hy.auxKey p.1 p.2 cp hp hcp])
    subst this
    rw [l1.cls]
    exact hy.attached p.1 _ ca hp hca
  · intro i c k j hi hc hm
    obtain ⟨a, ca, ha, hca, rfl, l1⟩ := h.at hy hi hc
    rw [l1.secs] at hm
    obtain ⟨q, hq, e⟩ := List.mem_map.1 hm
    cases e
    obtain ⟨cq, hcq, -⟩ := hy.sampler q.2 (.sec ha hca hq)
    rw [nameRank_eq hy ha hca, hy.secKey a ca q.1 q.2 cq ha hca hq hcq,
      nameRank_eq hy (.sec ha hca hq) hcq]
    exact hy.acyclic a ca q.1 q.2 ha hca hq
  · intro i c hd hc
    obtain ⟨a, ca, ha, hca, rfl, l1⟩ := h.at hy (.root (.inr hd)) hc
    rw [h.derived] at hd
    obtain ⟨b, hb, e⟩ := Option.map_eq_some_iff.1 hd
    obtain ⟨cb, hcb, -⟩ := hy.sampler b (.root (.inr hb))
    rw [nameAt_of_get? hcb] at e
    have := hy.names b a cb ca (.root (.inr hb)) ha hcb hca e
    subst this
    obtain ⟨h1, h2⟩ := hy.derived b ca hb hca
    rw [l1.cls, l1.name]
    refine ⟨h1, fun hs => h2 ?_⟩
    rw [l1.secs] at hs
    exact List.map_eq_nil_iff.1 hs

theorem LikeSynth.dumpable {py : F → Bool} (hy : Config R rank y) (h : LikeSynth R y y')
    (hp : Dumpable R py y) : Dumpable R py y' := by
  have sel : ∀ {a b : Option (CSel F)}, Opt (LikeSel R) a b →
      (∀ s, a = some s → PyNumbers py s.obj) → ∀ s, b = some s → PyNumbers py s.obj := by
    intro a b ho hs s e
    subst e
    cases a with
    | none => exact ho.elim
    | some a => exact ho.2.1.numbers (hs a rfl)
  refine ⟨h.spatial.2.2.numbers hp.spatial, ?_, ?_, ?_, ?_⟩
  · intro hr
    rw [h.spatial.1] at hr
    rw [h.spatial.2.1]
    exact hp.rate hr
  · intro c e
    have ho := h.lum
    rw [e] at ho
    cases hl : y.lum with
    | none => rw [hl] at ho; exact ho.elim
    | some a => rw [hl] at ho; exact ho.2.2.numbers (hp.lum a hl)
  · rintro s (e | e | e)
    · exact sel h.flux (fun s hs => hp.sels s (.inl hs)) s e
    · exact sel h.dist (fun s hs => hp.sels s (.inr (.inl hs))) s e
    · exact sel h.spat (fun s hs => hp.sels s (.inr (.inr hs))) s e
  · intro i c hi hc
    obtain ⟨a, ca, ha, hca, -, l1⟩ := h.at hy hi hc
    obtain ⟨h1, h2, h3⟩ := hp.samplers a ca ha hca
    exact ⟨by rw [l1.observed]; exact h1, l1.obj.numbers h2, l1.sel.2.1.numbers h3⟩

/-- The same document is written. -/
theorem LikeSynth.written (hy : Config R rank y) (h : LikeSynth R y y') {aux aux' : Dict (PVal F)}
    (ha : Inv y aux (Used y)) (ha' : Inv y' aux' (Used y')) :
    sortVal (.dict (Popsynth.written R y' aux')) = sortVal (.dict (Popsynth.written R y aux)) := by
  have sel : ∀ {a b : Option (CSel F)}, Opt (LikeSel R) a b →
      (∀ s, a = some s → (Dict.keys s.obj.storage).Nodup) → ∀ key,
      (optSection key (b.map selDict)).map (fun p => (p.1, sortVal p.2)) =
        (optSection key (a.map selDict)).map (fun p => (p.1, sortVal p.2)) := by
    intro a b ho hs key
    cases a <;> cases b
    · rfl
    · exact ho.elim
    · exact ho.elim
    · simp [optSection, LikeSel.sort ho (hs _ rfl)]
  obtain ⟨_, _, _, _, hsp, _⟩ := hy.spatial
  have haux : sortVal (.dict aux') = sortVal (.dict aux) := by
    refine (sort_perm ha.nodup ((List.perm_ext_iff_of_nodup ?_ ?_).2 ?_)).symm
    · refine List.Nodup.of_map Prod.fst ?_
      simpa [Dict.keys, List.map_map, Function.comp_def] using ha.nodup
    · refine List.Nodup.of_map Prod.fst ?_
      simpa [Dict.keys, List.map_map, Function.comp_def] using ha'.nodup
    · rintro ⟨k, w⟩
      simp only [List.mem_map, Prod.mk.injEq, Prod.exists]
      constructor
      · rintro ⟨k, v, hm, rfl, rfl⟩
        obtain ⟨j, c, hj, hc, rfl, rfl⟩ := ha.entry hm
        obtain ⟨c', h1, h2⟩ := h.sampler j c hj hc
        obtain ⟨c2, h3, h4⟩ := hy.sampler j hj
        rw [hc] at h3
        cases h3
        have := ha'.done c.name c' (h.to_used hy hj c hc) h1
        rw [h2.name] at this
        exact ⟨c.name, _, Dict.mem_of_get? this, rfl, h2.sort h4⟩
      · rintro ⟨k, v, hm, rfl, rfl⟩
        obtain ⟨j, c', hj, hc', rfl, rfl⟩ := ha'.entry hm
        obtain ⟨i, c, hi, hc, rfl, h2⟩ := h.at hy hj hc'
        obtain ⟨c2, h3, h4⟩ := hy.sampler i hi
        rw [hc] at h3
        cases h3
        have := ha.done i c hi hc
        rw [h2.name]
        exact ⟨c.name, _, Dict.mem_of_get? this, rfl, (h2.sort h4).symm⟩
  have hlum : (optSection "luminosity distribution" (y'.lum.map fun c => .dict (distDict c))).map
      (fun p => (p.1, sortVal p.2)) =
      (optSection "luminosity distribution" (y.lum.map fun c => .dict (distDict c))).map
      (fun p => (p.1, sortVal p.2)) := by
    have ho := h.lum
    cases e : y.lum <;> cases e' : y'.lum <;> rw [e, e'] at ho <;>
      first | rfl | exact False.elim ho | skip
    · obtain ⟨⟨_, _, _, _, hn, _⟩, _⟩ := hy.lum _ e
      simp [optSection, LikeDist.sort ho hn]
  refine (sort_perm (nodup_written R y aux) (List.Perm.of_eq ?_)).symm
  unfold Popsynth.written
  simp only [List.map_append, List.map_cons, List.map_nil]
  rw [hlum, sel h.flux, sel h.dist, sel h.spat, h.seed, h.spatial.spatial hsp hy.notRate, haux]
  · intro s hs; obtain ⟨_, _, _, h, _⟩ := hy.spat s hs; exact h.1
  · intro s hs; obtain ⟨_, _, _, h, _⟩ := hy.dist s hs; exact h.1
  · intro s hs; obtain ⟨_, _, _, h, _⟩ := hy.flux s hs; exact h.1

/-! ### Synths that are read -/

theorem SelRead.once {C : Conv F} {names : SelCls F → String → Bool} {look : SelFlags → SelFlags}
    {v : Option (PVal F)} {o : Option (CSel F)} (h : SelRead R C names look v o) (s : CSel F)
    (hs : o = some s) : (Dict.keys s.obj.storage).Nodup := by
  rcases h with ⟨_, e⟩ | ⟨v', s', _, e, _, _, _, _, _, _, _, _, _, hp⟩
  · rw [e] at hs; cases hs
  · rw [e] at hs; cases hs; exact hp.once

theorem Spec.Describes.sampler {C : Conv F} {d : Dict (PVal F)} (h : Describes R C d y) {k : String}
    {c : CSampler F} (hc : Dict.get? y.objs k = some c) :
    (Dict.keys c.obj.storage).Nodup ∧ (∀ n ∈ Spec.reserved, n ∉ Dict.keys c.obj.storage) ∧
      (Dict.keys c.sel.obj.storage).Nodup := by
  rcases h.samplers with ⟨_, e, _⟩ | ⟨E, sec, _, hr⟩
  · rw [e] at hc; cases hc
  · have hk : k ∈ Dict.keys E := by
      rw [← hr.keys]
      exact List.mem_map.2 ⟨_, Dict.mem_of_get? hc, rfl⟩
    cases hg : Dict.get? E k with
    | none => exact absurd hk ((Dict.get?_eq_none_iff _ _).1 hg)
    | some e =>
      obtain ⟨c', h1, items, K, obs, extra, sel, _, _, _, _, _, _, hp, hs, hsel, _⟩ := hr.entry k e hg
      rw [hc] at h1
      cases h1
      refine ⟨hp.once, fun n hn hm => ?_, ?_⟩
      · have := hp.unset n (.inr (by simp [hn]))
        exact (Dict.get?_eq_none_iff _ _).1 this hm
      · cases sel with
        | none => rw [hsel]; simp [Dict.keys]
        | some s => rw [hsel]; exact SelRead.once hs s rfl

theorem LikeSynth.of {C : Conv F} {d d' : Dict (PVal F)} {y1 : CSynth F} (h1 : SameConfig R y y1)
    (h2 : EqSynth y1 y') (hd1 : Describes R C d y1) (hd' : Describes R C d' y') :
    LikeSynth R y y' := by
  have sel : ∀ {n1 n2 n3 n4 : _} {v v'} {a b c : Option (CSel F)}, Opt (SameSel R) a b → Opt EqSel b c →
      SelRead R C n1 n2 v b → SelRead R C n3 n4 v' c → Opt (LikeSel R) a c := by
    intro n1 n2 n3 n4 v v' a b c hab hbc hb hc
    cases a <;> cases b <;> cases c <;> first | trivial | exact hab.elim | exact hbc.elim | skip
    rename_i a b c
    refine ⟨by rw [← hbc.1, hab.1], .of (SelRead.once hb _ rfl) (SelRead.once hc _ rfl) hab.2.1 hbc.2.2,
      fun k hk hu => ?_⟩
    rw [← hbc.2.1]
    exact hab.2.2 k hk hu
  refine ⟨h2.seed ▸ h1.seed, ?_, ?_, sel h1.flux h2.fluxSel hd1.flux hd'.flux,
    sel h1.dist h2.distSel hd1.dist hd'.dist, sel h1.spat h2.spatSel hd1.spat hd'.spat, ?_, ?_, ?_⟩
  · obtain ⟨_, _, _, ⟨_, _, _, _, _, p1⟩, _⟩ := hd1.spatial
    obtain ⟨_, _, _, ⟨_, _, _, _, _, p2⟩, _⟩ := hd'.spatial
    exact ⟨by rw [← h2.spatial.1, h1.spatial.1], by rw [← h2.spatial.2.1, h1.spatial.2.2],
      .of p1.once p2.once h1.spatial.2.1 h2.spatial.2.2⟩
  · have a1 := h1.lum
    have a2 := h2.lum
    cases e : y.lum <;> cases e1 : y1.lum <;> cases e2 : y'.lum <;> rw [e, e1] at a1 <;>
      rw [e1, e2] at a2 <;> first | trivial | exact a1.elim | exact a2.elim | skip
    rcases hd1.lum with ⟨_, q⟩ | ⟨_, _, _, _, q, ⟨_, _, _, _, _, p1⟩, _⟩
    · rw [e1] at q; cases q
    rw [e1] at q
    cases q
    rcases hd'.lum with ⟨_, q⟩ | ⟨_, _, _, _, q, ⟨_, _, _, _, _, p2⟩, _⟩
    · rw [e2] at q; cases q
    rw [e2] at q
    cases q
    exact ⟨by rw [← a2.1, a1.1], by rw [← a2.2.1, a1.2.2], .of p1.once p2.once a1.2.1 a2.2.2⟩
  · rw [← h1.aux]
    exact h2.aux.symm
  · rw [← h2.derived, h1.derived]
  · intro i c hi hc
    obtain ⟨c1, g1, ⟨s1, s2, s3, s4, s5, s6, s7⟩, -⟩ := h1.sampler i c hi hc
    have ho := h2.objs c.name
    rw [g1] at ho
    cases g2 : Dict.get? y'.objs c.name with
    | none => rw [g2] at ho; exact ho.elim
    | some c' =>
      rw [g2] at ho
      obtain ⟨t1, t2, t3, t4, t5, -, t7, t8⟩ := ho
      obtain ⟨p1, p2, p3⟩ := hd1.sampler g1
      obtain ⟨q1, q2, q3⟩ := hd'.sampler g2
      refine ⟨c', rfl, ⟨by rw [← t1, s1], by rw [← t2, s2], by rw [← t3, s3], by rw [← t4, s4],
        .of p1 q1 s5 t7, q2, ⟨by rw [← t8.1, s6.1], .of p3 q3 s6.2.1 t8.2.2, fun k hk hu => ?_⟩,
        by rw [← t5, s7]⟩⟩
      rw [← t8.2.1]
      exact s6.2.2 k hk hu

/-- **C91 (written again)**: a synth as in `C91_roundtrip_partial` that was written and read can be
written again, to any file, and the file then has exactly the document of the first file.  So
writing and reading change a configuration only once: the first time. -/
theorem C91_rewritten_partial (R : Registry F) (C : Conv F) (rank : String → Nat) (fuel : Nat)
    (can : String → Bool) (py : F → Bool) (y : CSynth F) (name : String) (fs : Files F)
    (hy : Config R rank y) (hf : ∀ i, Root y i → rank i < fuel) (hc : can name = true)
    (hp : Dumpable R py y) (hl : R.cosmo y.spatial.cls = true → y.spatial.cls < "is_rate")
    (hd : Dict.get? R.dists "is_rate" = none) (hs : Dict.get? R.sels "is_rate" = none)
    (hder : ∀ i c, Used y i → Dict.get? y.objs i = some c → R.derived c.cls = true →
      y.derived = some i) :
    ∃ fs' y' v, writeTo R fuel can py y name fs = .ok () fs' ∧ fs' name = some v ∧
      fromFile R C name fs' = .ok y' fs' ∧
      ∀ (name2 : String) (fs2 : Files F), can name2 = true →
        ∃ fs3, writeTo R fuel can py y' name2 fs2 = .ok () fs3 ∧ fs3 name2 = some v := by
  obtain ⟨fs', y1, y', aux, h1, h2, h3, h4, h5, h6, h7, h8⟩ :=
    roundtrip_core R C rank fuel can py y name fs hy hf hc hp hl hd hs hder
  have hlike := LikeSynth.of h3 h4 h7 h8
  have hcfg := hlike.config hy
  obtain ⟨aux', a1, a2, -⟩ := auxDict_ok hcfg (fuel := fuel) (by
    intro j hj
    obtain ⟨i, c, hi, hci, rfl⟩ := hlike.root_of hy hj
    rw [nameRank_eq hy (.root hi) hci]
    exact hf i hi)
  refine ⟨fs', y', _, h1, h6, h2, fun name2 fs2 hc2 => ?_⟩
  refine ⟨(fs2.write name2 .none).write name2 (sortVal (.dict (Popsynth.written R y' aux'))), ?_, ?_⟩
  · rw [writeTo_cases, hc2, toDict_eq R fuel y' aux' a1]
    simp only [if_true, represents_written (hlike.dumpable hy hp) a2]
  · rw [write_same, hlike.written hy h5 a2]

/-- **C91 (written again)** for everything put together from registered classes as in C64. -/
theorem C91_builtin_rewritten (half : F) (hlit : Literals half) (C : Conv F) (rank : String → Nat)
    (fuel : Nat) (can : String → Bool) (py : F → Bool) (y : CSynth F) (name : String)
    (fs : Files F) (hy : BuiltSynth half rank y) (hf : ∀ i, Root y i → rank i < fuel)
    (hc : can name = true) (hp : Dumpable (builtins half) py y) :
    ∃ fs' y' v, writeTo (builtins half) fuel can py y name fs = .ok () fs' ∧ fs' name = some v ∧
      fromFile (builtins half) C name fs' = .ok y' fs' ∧
      ∀ (name2 : String) (fs2 : Files F), can name2 = true →
        ∃ fs3, writeTo (builtins half) fuel can py y' name2 fs2 = .ok () fs3 ∧ fs3 name2 = some v := by
  refine C91_rewritten_partial (builtins half) C rank fuel can py y name fs
    (built_config half hlit rank y hy) hf hc hp ?_ ?_ ?_ ?_
  · intro _
    have h := hy.spatial.1
    simp only [spatialNames, cosmoNames, List.cons_append, List.nil_append, List.mem_cons,
      List.not_mem_nil, or_false] at h
    rcases h with h | h | h | h | h | h | h <;> rw [h] <;> decide
  · rw [Dict.get?_eq_none_iff, (C64_distributions half).2.1]
    decide
  · rw [Dict.get?_eq_none_iff, (C64_selections half).2.1]
    decide
  · intro i c hi hci hdc
    obtain ⟨c', h1, _, ⟨k', h2, _⟩, _⟩ := hy.sampler i hi
    rw [hci] at h1; cases h1
    unfold Registry.derived at hdc
    rw [h2] at hdc
    simp only at hdc
    rw [((C64_samplers half).2.2 _ _ h2).1] at hdc
    cases hdc

/-- The samplers of `twoSamplers`, filed under their names. -/
def ConfigExample.sortedSamplers : CSynth Int where
  seed := 1
  spatial := { cls := "SFRDistribution", obj := { storage := [("a", some 2), ("r0", some 3)] }
               isRate := .bool true }
  objs := [
    ("a", { cls := "NormalAuxSampler", name := "a", obsName := "a_obs", observed := .bool true,
            sel := { cls := "UnitySelection", flags := { obs := true } } }),
    ("x", { cls := "NormalAuxSampler", name := "x", obsName := "x_obs", observed := .bool true,
            sel := { cls := "UnitySelection", flags := { obs := true } } })]
  aux := [("a", "a"), ("x", "x")]

open ConfigExample in
/-- Two samplers in another order than that of the alphabet: the second file is like the first. -/
example : ∃ fs' fs2, writeTo reg 5 (fun _ => true) (fun _ => true) twoSamplers "s.yml"
      (fun _ => none) = .ok () fs' ∧ fromFile reg conv "s.yml" fs' = .ok sortedSamplers fs' ∧
    writeTo reg 5 (fun _ => true) (fun _ => true) sortedSamplers "t.yml" fs' = .ok () fs2 ∧
    fs2 "t.yml" = fs' "s.yml" ∧ (fs2 "t.yml").isSome = true :=
  ⟨_, _, rfl, rfl, rfl, rfl, rfl⟩

end Popsynth
