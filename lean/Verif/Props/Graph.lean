import Verif.Lemmas.Graph
import Verif.Props.SurveyExample

/-!
# C44 (the dependency graph)
-/

set_option autoImplicit false
set_option linter.unusedSectionVars false

namespace Popsynth

open Spec

variable {F G : Type}

/-! ### Specification -/

/-- Sampler `j`, known under the name `k`, is sampler `i` (known as `k0`) or one of its
direct or indirect secondaries. -/
inductive Spec.Below (h : Heap F G) : String → Nat → String → Nat → Prop
  | here (k : String) (i : Nat) : Below h k i k i
  | step {k0 : String} {i : Nat} {n : String} {c : Nat} {k : String} {j : Nat} :
      (n, c) ∈ (h.samplers i).secondaries → Below h n c k j → Below h k0 i k j

/-- `k`/`j` is a secondary, direct or not, of sampler `i`. -/
def Spec.Under (h : Heap F G) (i : Nat) (k : String) (j : Nat) : Prop :=
  ∃ n c, (n, c) ∈ (h.samplers i).secondaries ∧ Below h n c k j

/-- `k`/`j` is attached to the synth, is its derived luminosity sampler, or a dependency of
one of those. -/
def Spec.InConfig (y : Synth F) (h : Heap F G) (k : String) (j : Nat) : Prop :=
  (∃ k0 i, (k0, i) ∈ y.aux ∧ Below h k0 i k j) ∨
  ∃ d, y.derived = some d ∧ Below h (h.samplers d).name d k j

/-- The edges of the graph of a configuration. -/
inductive Spec.IsEdge (y : Synth F) (h : Heap F G) : String → String → Prop
  | position : IsEdge y h y.spatialName "obs_flux"
  | luminosity (l : String) : y.derived = none → y.lumName = some l → IsEdge y h l "obs_flux"
  | derived (d : Nat) : y.derived = some d → IsEdge y h (h.samplers d).name "obs_flux"
  | uses {k : String} {j : Nat} {n : String} {c : Nat} : InConfig y h k j →
      (n, c) ∈ (h.samplers j).secondaries → IsEdge y h n k
  | observed {k : String} {j : Nat} : InConfig y h k j → (h.samplers j).isObserved = true →
      IsEdge y h k (h.samplers j).obsName
  | distance {k : String} {j : Nat} : InConfig y h k j → (h.samplers j).usesDistance = true →
      IsEdge y h y.spatialName k

/-- The nodes of the graph of a configuration. -/
def Spec.IsNode (y : Synth F) (h : Heap F G) (n : String) : Prop :=
  n = y.spatialName ∨ n = "obs_flux" ∨ (∃ i, (n, i) ∈ y.aux) ∨
  ∃ m, IsEdge y h n m ∨ IsEdge y h m n

/-! ### What `get_secondary_properties` adds -/

theorem cond_err (b : Bool) (p : Plan) : (Plan.cond b p).err = none ↔ (b = true → p.err = none) := by
  cases b <;> simp [Plan.cond]

theorem mem_cond (b : Bool) (p : Plan) (o : GOp) :
    o ∈ (Plan.cond b p).ops ↔ b = true ∧ o ∈ p.ops := by
  cases b <;> simp [Plan.cond]

/-- The part of `secsPlan` for one secondary. -/
def secPlan (h : Heap F G) (k : Nat) (primary : String) (p : String × Nat) : Plan :=
  (Plan.mk [.node p.1 (some false), .edge p.1 primary] none).seq
    ((Plan.cond (h.samplers p.2).isObserved
      { ops := [.node (h.samplers p.2).obsName (some false), .edge p.1 (h.samplers p.2).obsName] }).seq
    ((Plan.cond (h.samplers p.2).usesDistance { err := some .attribute }).seq
      (secsPlan h k p.2 p.1)))

theorem secsPlan_succ (h : Heap F G) (k i : Nat) (primary : String) :
    secsPlan h (k + 1) i primary = Plan.cond (h.samplers i).hasSecondary
      (Plan.all (secPlan h k primary) (h.samplers i).secondaries) := rfl

theorem secPlan_err (h : Heap F G) (k : Nat) (primary : String) (p : String × Nat) :
    (secPlan h k primary p).err = none ↔ (h.samplers p.2).usesDistance = false ∧
      (secsPlan h k p.2 p.1).err = none := by
  unfold secPlan
  rw [Plan.seq_err, Plan.seq_err, Plan.seq_err, cond_err, cond_err]
  simp

theorem mem_secPlan (h : Heap F G) (k : Nat) (primary : String) (p : String × Nat)
    (he : (secPlan h k primary p).err = none) (o : GOp) :
    o ∈ (secPlan h k primary p).ops ↔ o = .node p.1 (some false) ∨ o = .edge p.1 primary ∨
      ((h.samplers p.2).isObserved = true ∧ (o = .node (h.samplers p.2).obsName (some false) ∨
        o = .edge p.1 (h.samplers p.2).obsName)) ∨ o ∈ (secsPlan h k p.2 p.1).ops := by
  have hu := ((secPlan_err h k primary p).1 he).1
  unfold secPlan
  rw [Plan.mem_seq _ _ rfl, Plan.mem_seq _ _ (by rw [cond_err]; simp),
    Plan.mem_seq _ _ (by rw [hu]; rfl), mem_cond, mem_cond, hu]
  simp [or_assoc]

theorem mem_secPlan_sub (h : Heap F G) (k : Nat) (primary : String) (p : String × Nat) (o : GOp)
    (ho : o ∈ (secPlan h k primary p).ops) : o = .node p.1 (some false) ∨ o = .edge p.1 primary ∨
      ((h.samplers p.2).isObserved = true ∧ (o = .node (h.samplers p.2).obsName (some false) ∨
        o = .edge p.1 (h.samplers p.2).obsName)) ∨ o ∈ (secsPlan h k p.2 p.1).ops := by
  unfold secPlan at ho
  rcases Plan.mem_seq_sub _ _ _ ho with ho | ho
  · simp only [List.mem_cons, List.not_mem_nil, or_false] at ho
    rcases ho with ho | ho
    · exact .inl ho
    · exact .inr (.inl ho)
  · rcases Plan.mem_seq_sub _ _ _ ho with ho | ho
    · obtain ⟨hb, ho⟩ := (mem_cond _ _ _).1 ho
      simp only [List.mem_cons, List.not_mem_nil, or_false] at ho
      exact .inr (.inr (.inl ⟨hb, ho⟩))
    · rcases Plan.mem_seq_sub _ _ _ ho with ho | ho
      · obtain ⟨_, ho⟩ := (mem_cond _ _ _).1 ho
        cases ho
      · exact .inr (.inr (.inr ho))

/-- Samplers know when they have secondaries (`set_secondary_sampler` sets the flag,
auxiliary_sampler.py:318). -/
def Spec.FlagsRight (h : Heap F G) : Prop :=
  ∀ i, (h.samplers i).secondaries ≠ [] → (h.samplers i).hasSecondary = true

theorem secsPlan_complete (h : Heap F G) (hf : FlagsRight h) (fuel i : Nat) (primary : String)
    (he : (secsPlan h fuel i primary).err = none) :
    (∀ k j, Below h primary i k j → ∀ n c, (n, c) ∈ (h.samplers j).secondaries →
      GOp.edge n k ∈ (secsPlan h fuel i primary).ops) ∧
    (∀ k j, Under h i k j → (h.samplers j).usesDistance = false ∧
      ((h.samplers j).isObserved = true →
        GOp.edge k (h.samplers j).obsName ∈ (secsPlan h fuel i primary).ops)) := by
  induction fuel generalizing i primary with
  | zero => simp [secsPlan] at he
  | succ fuel ih =>
    rw [secsPlan_succ] at he ⊢
    have hsec : ∀ n c, (n, c) ∈ (h.samplers i).secondaries → (h.samplers i).hasSecondary = true :=
      fun n c hm => hf i (by intro e; rw [e] at hm; cases hm)
    have hall : (h.samplers i).hasSecondary = true →
        ∀ p ∈ (h.samplers i).secondaries, (secPlan h fuel primary p).err = none :=
      fun hb => (Plan.all_err _ _).1 ((cond_err _ _).1 he hb)
    have mem : ∀ n c, (n, c) ∈ (h.samplers i).secondaries → ∀ o,
        o ∈ (secPlan h fuel primary (n, c)).ops →
        o ∈ (Plan.cond (h.samplers i).hasSecondary
          (Plan.all (secPlan h fuel primary) (h.samplers i).secondaries)).ops := by
      intro n c hm o ho
      rw [mem_cond, Plan.mem_all _ _ (hall (hsec n c hm))]
      exact ⟨hsec n c hm, (n, c), hm, ho⟩
    refine ⟨?_, ?_⟩
    · intro k j hb n c hm
      cases hb with
      | here =>
        refine mem n c hm _ ?_
        rw [mem_secPlan _ _ _ _ (hall (hsec n c hm) _ hm)]
        exact .inr (.inl rfl)
      | @step _ _ n0 c0 _ _ hm0 hb =>
        have e0 := hall (hsec n0 c0 hm0) _ hm0
        refine mem n0 c0 hm0 _ ?_
        rw [mem_secPlan _ _ _ _ e0]
        exact .inr (.inr (.inr ((ih c0 n0 ((secPlan_err _ _ _ _).1 e0).2).1 k j hb n c hm)))
    · rintro k j ⟨n0, c0, hm0, hb⟩
      have e0 := hall (hsec n0 c0 hm0) _ hm0
      have ih0 := ih c0 n0 ((secPlan_err _ _ _ _).1 e0).2
      cases hb with
      | here =>
        refine ⟨((secPlan_err _ _ _ _).1 e0).1, fun ho => mem _ _ hm0 _ ?_⟩
        rw [mem_secPlan _ _ _ _ e0]
        exact .inr (.inr (.inl ⟨ho, .inr rfl⟩))
      | @step _ _ n1 c1 _ _ hm1 hb =>
        obtain ⟨h1, h2⟩ := ih0.2 k j ⟨n1, c1, hm1, hb⟩
        refine ⟨h1, fun ho => mem n0 c0 hm0 _ ?_⟩
        rw [mem_secPlan _ _ _ _ e0]
        exact .inr (.inr (.inr (h2 ho)))

theorem secsPlan_sound (h : Heap F G) (fuel i : Nat) (primary : String) (o : GOp)
    (ho : o ∈ (secsPlan h fuel i primary).ops) :
    (∃ k j n c, Below h primary i k j ∧ (n, c) ∈ (h.samplers j).secondaries ∧
      (o = .edge n k ∨ ∃ b, o = .node n b)) ∨
    ∃ k j, Under h i k j ∧ (h.samplers j).isObserved = true ∧
      (o = .edge k (h.samplers j).obsName ∨ ∃ b, o = .node (h.samplers j).obsName b) := by
  induction fuel generalizing i primary with
  | zero => simp [secsPlan] at ho
  | succ fuel ih =>
    rw [secsPlan_succ] at ho
    obtain ⟨_, ho⟩ := (mem_cond _ _ _).1 ho
    obtain ⟨⟨n, c⟩, hm, ho⟩ := Plan.mem_all_sub _ _ _ ho
    rcases mem_secPlan_sub _ _ _ _ _ ho with rfl | rfl | ⟨hb, rfl | rfl⟩ | ho
    · exact .inl ⟨primary, i, n, c, .here _ _, hm, .inr ⟨_, rfl⟩⟩
    · exact .inl ⟨primary, i, n, c, .here _ _, hm, .inl rfl⟩
    · exact .inr ⟨n, c, ⟨n, c, hm, .here _ _⟩, hb, .inr ⟨_, rfl⟩⟩
    · exact .inr ⟨n, c, ⟨n, c, hm, .here _ _⟩, hb, .inl rfl⟩
    · rcases ih c n ho with ⟨k, j, n', c', hb, hm', e⟩ | ⟨k, j, ⟨n', c', hm', hb⟩, e⟩
      · exact .inl ⟨k, j, n', c', .step hm hb, hm', e⟩
      · exact .inr ⟨k, j, ⟨n, c, hm, .step hm' hb⟩, e⟩

theorem secsPlan_ok (h : Heap F G) (rank : Nat → Nat) (fuel i : Nat) (primary : String)
    (hr : ∀ k j, Below h primary i k j → ∀ n c, (n, c) ∈ (h.samplers j).secondaries → rank c < rank j)
    (hf : rank i < fuel) (hu : ∀ k j, Under h i k j → (h.samplers j).usesDistance = false) :
    (secsPlan h fuel i primary).err = none := by
  induction fuel generalizing i primary with
  | zero => omega
  | succ fuel ih =>
    rw [secsPlan_succ, cond_err]
    intro _
    rw [Plan.all_err]
    rintro ⟨n, c⟩ hm
    rw [secPlan_err]
    refine ⟨hu n c ⟨n, c, hm, .here _ _⟩, ih c n (fun k j hb => hr k j (.step hm hb)) ?_ ?_⟩
    · have := hr primary i (.here _ _) n c hm
      omega
    · rintro k j ⟨n', c', hm', hb⟩
      exact hu k j ⟨n, c, hm, .step hm' hb⟩

/-! ### Attached samplers and the derived luminosity sampler -/

theorem auxSecPlan_err (fuel : Nat) (y : Synth F) (h : Heap F G) (k : String) (p : String × Nat) :
    (auxSecPlan fuel y h k p).err = none ↔ (secsPlan h fuel p.2 p.1).err = none := by
  unfold auxSecPlan
  rw [Plan.seq_err, Plan.seq_err, Plan.seq_err, cond_err, cond_err]
  simp

theorem mem_auxSecPlan (fuel : Nat) (y : Synth F) (h : Heap F G) (k : String) (p : String × Nat)
    (o : GOp) : o ∈ (auxSecPlan fuel y h k p).ops ↔ o = .edge p.1 k ∨ o = .node p.1 (some false) ∨
      ((h.samplers p.2).usesDistance = true ∧ o = .edge y.spatialName p.1) ∨
      ((h.samplers p.2).isObserved = true ∧ (o = .node (h.samplers p.2).obsName (some true) ∨
        o = .edge p.1 (h.samplers p.2).obsName)) ∨ o ∈ (secsPlan h fuel p.2 p.1).ops := by
  unfold auxSecPlan
  rw [Plan.mem_seq _ _ rfl, Plan.mem_seq _ _ (by rw [cond_err]; simp),
    Plan.mem_seq _ _ (by rw [cond_err]; simp), mem_cond, mem_cond]
  simp [or_assoc]

theorem auxPlan_err (fuel : Nat) (y : Synth F) (h : Heap F G) (kv : String × Nat) :
    (auxPlan fuel y h kv).err = none ↔ (h.samplers kv.2).isSecondary = false ∧
      ∀ p ∈ (h.samplers kv.2).secondaries, (secsPlan h fuel p.2 p.1).err = none := by
  unfold auxPlan
  rw [Plan.seq_err, Plan.seq_err, Plan.seq_err, cond_err, cond_err, Plan.seq_err, cond_err,
    Plan.all_err]
  simp [auxSecPlan_err]

theorem mem_auxPlan_sub (fuel : Nat) (y : Synth F) (h : Heap F G) (kv : String × Nat) (o : GOp)
    (ho : o ∈ (auxPlan fuel y h kv).ops) : o = .node kv.1 (some false) ∨
      ((h.samplers kv.2).isObserved = true ∧ (o = .node (h.samplers kv.2).obsName (some false) ∨
        o = .edge kv.1 (h.samplers kv.2).obsName ∨ ((h.samplers kv.2).usesDistance = true ∧
          o = .edge y.spatialName kv.1))) ∨
      ∃ p ∈ (h.samplers kv.2).secondaries, o ∈ (auxSecPlan fuel y h kv.1 p).ops := by
  unfold auxPlan at ho
  rcases Plan.mem_seq_sub _ _ _ ho with ho | ho
  · obtain ⟨_, ho⟩ := (mem_cond _ _ _).1 ho; cases ho
  · rcases Plan.mem_seq_sub _ _ _ ho with ho | ho
    · exact .inl (by simpa using ho)
    · rcases Plan.mem_seq_sub _ _ _ ho with ho | ho
      · obtain ⟨hb, ho⟩ := (mem_cond _ _ _).1 ho
        refine .inr (.inl ⟨hb, ?_⟩)
        rw [Plan.mem_seq _ _ rfl, mem_cond] at ho
        simpa [or_assoc] using ho
      · exact .inr (.inr (Plan.mem_all_sub _ _ _ ho))

theorem mem_auxPlan (fuel : Nat) (y : Synth F) (h : Heap F G) (kv : String × Nat)
    (he : (auxPlan fuel y h kv).err = none) (o : GOp) :
    o ∈ (auxPlan fuel y h kv).ops ↔ o = .node kv.1 (some false) ∨
      ((h.samplers kv.2).isObserved = true ∧ (o = .node (h.samplers kv.2).obsName (some false) ∨
        o = .edge kv.1 (h.samplers kv.2).obsName ∨ ((h.samplers kv.2).usesDistance = true ∧
          o = .edge y.spatialName kv.1))) ∨
      ∃ p ∈ (h.samplers kv.2).secondaries, o ∈ (auxSecPlan fuel y h kv.1 p).ops := by
  refine ⟨mem_auxPlan_sub fuel y h kv o, ?_⟩
  obtain ⟨h1, h2⟩ := (auxPlan_err fuel y h kv).1 he
  unfold auxPlan
  rw [Plan.mem_seq _ _ (by rw [h1]; rfl), Plan.mem_seq _ _ rfl,
    Plan.mem_seq _ _ (by rw [cond_err, Plan.seq_err, cond_err]; simp),
    mem_cond (h.samplers kv.2).isObserved, Plan.mem_seq _ _ rfl, mem_cond (h.samplers kv.2).usesDistance,
    Plan.mem_all _ _ (fun p hp => (auxSecPlan_err _ _ _ _ _).2 (h2 p hp))]
  rintro (ho | ⟨hb, ho⟩ | ho)
  · exact .inr (.inl (by simpa using ho))
  · refine .inr (.inr (.inl ⟨hb, ?_⟩))
    simpa [or_assoc] using ho
  · exact .inr (.inr (.inr ho))

theorem derivedPlan_err (fuel : Nat) (y : Synth F) (h : Heap F G) (d : Nat) :
    (derivedPlan fuel y h d).err = none ↔
      ∀ p ∈ (h.samplers d).secondaries, (secsPlan h fuel p.2 p.1).err = none := by
  unfold derivedPlan
  rw [Plan.seq_err, Plan.seq_err, cond_err, Plan.all_err]
  simp [Plan.seq_err]

theorem mem_derivedPlan_sub (fuel : Nat) (y : Synth F) (h : Heap F G) (d : Nat) (o : GOp)
    (ho : o ∈ (derivedPlan fuel y h d).ops) : o = .node (h.samplers d).name none ∨
      o = .edge (h.samplers d).name "obs_flux" ∨
      ((h.samplers d).usesDistance = true ∧ o = .edge y.spatialName (h.samplers d).name) ∨
      ∃ p ∈ (h.samplers d).secondaries, o = .node p.1 none ∨ o = .edge p.1 (h.samplers d).name ∨
        o ∈ (secsPlan h fuel p.2 p.1).ops := by
  unfold derivedPlan at ho
  rw [Plan.mem_seq _ _ rfl, Plan.mem_seq _ _ (by rw [cond_err]; simp), mem_cond] at ho
  rcases ho with ho | ho | ho
  · simp only [List.mem_cons, List.not_mem_nil, or_false] at ho
    rcases ho with ho | ho
    · exact .inl ho
    · exact .inr (.inl ho)
  · exact .inr (.inr (.inl (by simpa using ho)))
  · obtain ⟨p, hp, ho⟩ := Plan.mem_all_sub _ _ _ ho
    rw [Plan.mem_seq _ _ rfl] at ho
    refine .inr (.inr (.inr ⟨p, hp, ?_⟩))
    simpa [or_assoc] using ho

theorem mem_derivedPlan (fuel : Nat) (y : Synth F) (h : Heap F G) (d : Nat)
    (he : (derivedPlan fuel y h d).err = none) (o : GOp) :
    o ∈ (derivedPlan fuel y h d).ops ↔ o = .node (h.samplers d).name none ∨
      o = .edge (h.samplers d).name "obs_flux" ∨
      ((h.samplers d).usesDistance = true ∧ o = .edge y.spatialName (h.samplers d).name) ∨
      ∃ p ∈ (h.samplers d).secondaries, o = .node p.1 none ∨ o = .edge p.1 (h.samplers d).name ∨
        o ∈ (secsPlan h fuel p.2 p.1).ops := by
  refine ⟨mem_derivedPlan_sub fuel y h d o, ?_⟩
  have h2 := (derivedPlan_err fuel y h d).1 he
  unfold derivedPlan
  rw [Plan.mem_seq _ _ rfl, Plan.mem_seq _ _ (by rw [cond_err]; simp), mem_cond,
    Plan.mem_all _ _ (fun p hp => by rw [Plan.seq_err]; exact ⟨rfl, h2 p hp⟩)]
  rintro (ho | ho | ho | ⟨p, hp, ho⟩)
  · exact .inl (by simp [ho])
  · exact .inl (by simp [ho])
  · exact .inr (.inl (by simpa using ho))
  · refine .inr (.inr ⟨p, hp, ?_⟩)
    rw [Plan.mem_seq _ _ rfl]
    simpa [or_assoc] using ho

/-! ### The whole plan -/

theorem buildPlan_err (fuel : Nat) (y : Synth F) (h : Heap F G) :
    (buildPlan fuel y h).err = none ↔ (lumPlan fuel y h).err = none ∧
      ∀ kv ∈ y.aux, (auxPlan fuel y h kv).err = none := by
  unfold buildPlan
  rw [Plan.seq_err, Plan.seq_err, Plan.all_err]
  simp

theorem mem_buildPlan_sub (fuel : Nat) (y : Synth F) (h : Heap F G) (o : GOp)
    (ho : o ∈ (buildPlan fuel y h).ops) : o = .node "obs_flux" (some true) ∨
      o = .edge y.spatialName "obs_flux" ∨ o ∈ (lumPlan fuel y h).ops ∨
      ∃ kv ∈ y.aux, o ∈ (auxPlan fuel y h kv).ops := by
  unfold buildPlan at ho
  rw [Plan.mem_seq _ _ rfl] at ho
  rcases ho with ho | ho
  · simp only [List.mem_cons, List.not_mem_nil, or_false] at ho
    rcases ho with ho | ho
    · exact .inl ho
    · exact .inr (.inl ho)
  · rcases Plan.mem_seq_sub _ _ _ ho with ho | ho
    · exact .inr (.inr (.inl ho))
    · exact .inr (.inr (.inr (Plan.mem_all_sub _ _ _ ho)))

theorem mem_buildPlan (fuel : Nat) (y : Synth F) (h : Heap F G)
    (he : (buildPlan fuel y h).err = none) (o : GOp) :
    o ∈ (buildPlan fuel y h).ops ↔ o = .node "obs_flux" (some true) ∨
      o = .edge y.spatialName "obs_flux" ∨ o ∈ (lumPlan fuel y h).ops ∨
      ∃ kv ∈ y.aux, o ∈ (auxPlan fuel y h kv).ops := by
  refine ⟨mem_buildPlan_sub fuel y h o, ?_⟩
  obtain ⟨h1, h2⟩ := (buildPlan_err fuel y h).1 he
  unfold buildPlan
  rw [Plan.mem_seq _ _ rfl, Plan.mem_seq _ _ h1, Plan.mem_all _ _ h2]
  rintro (ho | ho | ho | ho)
  · exact .inl (by simp [ho])
  · exact .inl (by simp [ho])
  · exact .inr (.inl ho)
  · exact .inr (.inr ho)

theorem buildGraph_ok_iff (fuel : Nat) (y : Synth F) (h : Heap F G) (g g' : Graph) :
    buildGraph fuel y h g = .ok () g' ↔ (buildPlan fuel y h).err = none ∧
      g' = (buildPlan fuel y h).ops.foldl GOp.run g := by
  rw [buildGraph_emits fuel y h g]
  unfold Plan.exec
  cases (buildPlan fuel y h).err with
  | none => simp [eq_comm]
  | some e => simp

/-! ### C44 -/

/-- **C44** (partial, completeness): whenever `synth.graph` is returned, it has a node for
every attached sampler, an edge from every dependency — of attached samplers and of the
derived luminosity sampler, at any depth — to the sampler using it, an edge from the
position and from the luminosity to the observed flux, and an edge from every observed
sampler to its observed node, for attached samplers and all their dependencies.
*Missing*: the observed nodes of the direct dependencies of a derived luminosity sampler
(`C44_violated_derived`). -/
theorem C44_complete_partial (fuel : Nat) (y : Synth F) (h : Heap F G) (g g' : Graph)
    (hf : FlagsRight h) (hk : buildGraph fuel y h g = .ok () g') :
    (y.spatialName, "obs_flux") ∈ g'.edges ∧
    (∀ l, y.derived = none → y.lumName = some l → (l, "obs_flux") ∈ g'.edges) ∧
    (∀ d, y.derived = some d → ((h.samplers d).name, "obs_flux") ∈ g'.edges) ∧
    (∀ k i, (k, i) ∈ y.aux → k ∈ g'.nodes.keys) ∧
    (∀ k j, InConfig y h k j → ∀ n c, (n, c) ∈ (h.samplers j).secondaries → (n, k) ∈ g'.edges) ∧
    (∀ k0 i, (k0, i) ∈ y.aux → ∀ k j, Below h k0 i k j → (h.samplers j).isObserved = true →
      (k, (h.samplers j).obsName) ∈ g'.edges) ∧
    (∀ u v, (u, v) ∈ g'.edges → (u, v) ∉ g.edges → u ∈ g'.nodes.keys ∧ v ∈ g'.nodes.keys) := by
  obtain ⟨he, rfl⟩ := (buildGraph_ok_iff _ _ _ _ _).1 hk
  obtain ⟨hl, ha⟩ := (buildPlan_err _ _ _).1 he
  have edge : ∀ u v, GOp.edge u v ∈ (buildPlan fuel y h).ops →
      (u, v) ∈ ((buildPlan fuel y h).ops.foldl GOp.run g).edges := by
    intro u v ho
    rw [run_edges]
    exact .inr ho
  have mem := mem_buildPlan fuel y h he
  have memAux : ∀ kv ∈ y.aux, ∀ o ∈ (auxPlan fuel y h kv).ops, o ∈ (buildPlan fuel y h).ops :=
    fun kv hkv o ho => (mem o).2 (.inr (.inr (.inr ⟨kv, hkv, ho⟩)))
  refine ⟨edge _ _ ((mem _).2 (.inr (.inl rfl))), ?_, ?_, ?_, ?_, ?_, ?_⟩
  · intro l hd hln
    refine edge _ _ ((mem _).2 (.inr (.inr (.inl ?_))))
    unfold lumPlan
    rw [hd, hln]
    simp
  · intro d hd
    refine edge _ _ ((mem _).2 (.inr (.inr (.inl ?_))))
    have hl' := hl
    unfold lumPlan at hl' ⊢
    rw [hd] at hl' ⊢
    rw [mem_derivedPlan _ _ _ _ hl']
    exact .inr (.inl rfl)
  · intro k i hm
    rw [run_keys]
    refine .inr ⟨.node k (some false), memAux (k, i) hm _ ?_, rfl⟩
    rw [mem_auxPlan _ _ _ _ (ha _ hm)]
    exact .inl rfl
  · rintro k j (⟨k0, i, hm, hb⟩ | ⟨d, hd, hb⟩) n c hc
    · apply edge
      have e0 := ha _ hm
      apply memAux _ hm
      rw [mem_auxPlan _ _ _ _ e0]
      refine .inr (.inr ?_)
      cases hb with
      | here =>
        refine ⟨(n, c), hc, ?_⟩
        rw [mem_auxSecPlan]
        exact .inl rfl
      | @step _ _ n0 c0 _ _ hm0 hb =>
        refine ⟨(n0, c0), hm0, ?_⟩
        rw [mem_auxSecPlan]
        exact .inr (.inr (.inr (.inr ((secsPlan_complete h hf _ _ _
          (((auxPlan_err _ _ _ _).1 e0).2 _ hm0)).1 k j hb n c hc))))
    · refine edge _ _ ((mem _).2 (.inr (.inr (.inl ?_))))
      have hl' := hl
      unfold lumPlan at hl' ⊢
      rw [hd] at hl' ⊢
      rw [mem_derivedPlan _ _ _ _ hl']
      refine .inr (.inr (.inr ?_))
      cases hb with
      | here => exact ⟨(n, c), hc, .inr (.inl rfl)⟩
      | @step _ _ n0 c0 _ _ hm0 hb =>
        exact ⟨(n0, c0), hm0, .inr (.inr ((secsPlan_complete h hf _ _ _
          ((derivedPlan_err _ _ _ _).1 hl' _ hm0)).1 k j hb n c hc))⟩
  · intro k0 i hm k j hb ho
    apply edge
    have e0 := ha _ hm
    apply memAux _ hm
    rw [mem_auxPlan _ _ _ _ e0]
    cases hb with
    | here => exact .inr (.inl ⟨ho, .inr (.inl rfl)⟩)
    | @step _ _ n0 c0 _ _ hm0 hb =>
      refine .inr (.inr ⟨(n0, c0), hm0, ?_⟩)
      rw [mem_auxSecPlan]
      cases hb with
      | here => exact .inr (.inr (.inr (.inl ⟨ho, .inr rfl⟩)))
      | @step _ _ n1 c1 _ _ hm1 hb =>
        exact .inr (.inr (.inr (.inr (((secsPlan_complete h hf _ _ _
          (((auxPlan_err _ _ _ _).1 e0).2 _ hm0)).2 k j ⟨n1, c1, hm1, hb⟩).2 ho))))
  · intro u v huv hn
    rw [run_edges] at huv
    rcases huv with huv | huv
    · exact (hn huv).elim
    · rw [run_keys, run_keys]
      exact ⟨.inr ⟨_, huv, Or.inl rfl⟩, .inr ⟨_, huv, Or.inr rfl⟩⟩

/-- **C44** (soundness): every edge and node that reading `synth.graph` adds, whether or not
it then raises, belongs to the current configuration. -/
theorem C44_sound (fuel : Nat) (y : Synth F) (h : Heap F G) (g : Graph) :
    (∀ u v, (u, v) ∈ (endState (buildGraph fuel y h g)).edges → (u, v) ∈ g.edges ∨ IsEdge y h u v) ∧
    (∀ n, n ∈ (endState (buildGraph fuel y h g)).nodes.keys → n ∈ g.nodes.keys ∨ IsNode y h n) := by
  have hend : endState (buildGraph fuel y h g) = (buildPlan fuel y h).ops.foldl GOp.run g := by
    rw [buildGraph_emits fuel y h g]
    unfold Plan.exec
    cases (buildPlan fuel y h).err <;> rfl
  -- every command belongs to the configuration
  have key : ∀ o ∈ (buildPlan fuel y h).ops, match o with
      | .edge u v => IsEdge y h u v
      | .node n _ => IsNode y h n := by
    have sec : ∀ (k0 : String) (i : Nat) (n0 : String) (c0 : Nat),
        (n0, c0) ∈ (h.samplers i).secondaries →
        (∀ k j, Below h k0 i k j → InConfig y h k j) → ∀ o ∈ (secsPlan h fuel c0 n0).ops, (match o with
        | .edge u v => IsEdge y h u v
        | .node n _ => IsNode y h n) := by
      intro k0 i n0 c0 hm0 hin o ho
      rcases secsPlan_sound h fuel c0 n0 o ho with ⟨k, j, n, c, hb, hm, rfl | ⟨b, rfl⟩⟩ |
        ⟨k, j, ⟨n', c', hm', hb⟩, hobs, rfl | ⟨b, rfl⟩⟩
      · exact IsEdge.uses (hin k j (.step hm0 hb)) hm
      · exact .inr (.inr (.inr ⟨k, .inl (IsEdge.uses (hin k j (.step hm0 hb)) hm)⟩))
      · exact IsEdge.observed (hin k j (.step hm0 (.step hm' hb))) hobs
      · exact .inr (.inr (.inr ⟨k, .inr (IsEdge.observed (hin k j (.step hm0 (.step hm' hb))) hobs)⟩))
    intro o ho
    rcases mem_buildPlan_sub _ _ _ _ ho with rfl | rfl | ho | ⟨⟨k0, i⟩, hm, ho⟩
    · exact .inr (.inl rfl)
    · exact IsEdge.position
    · unfold lumPlan at ho
      cases hd : y.derived with
      | some d =>
        rw [hd] at ho
        have hin : ∀ k j, Below h (h.samplers d).name d k j → InConfig y h k j :=
          fun k j hb => .inr ⟨d, hd, hb⟩
        rcases mem_derivedPlan_sub _ _ _ _ _ ho with rfl | rfl | ⟨hu, rfl⟩ | ⟨⟨n, c⟩, hm, rfl | rfl | ho⟩
        · exact .inr (.inr (.inr ⟨_, .inl (IsEdge.derived d hd)⟩))
        · exact IsEdge.derived d hd
        · exact IsEdge.distance (hin _ _ (.here _ _)) hu
        · exact .inr (.inr (.inr ⟨_, .inl (IsEdge.uses (hin _ _ (.here _ _)) hm)⟩))
        · exact IsEdge.uses (hin _ _ (.here _ _)) hm
        · exact sec _ d n c hm hin o ho
      | none =>
        rw [hd] at ho
        cases hl : y.lumName with
        | none => rw [hl] at ho; cases ho
        | some l =>
          rw [hl] at ho
          simp only [List.mem_singleton] at ho
          subst ho
          exact IsEdge.luminosity l hd hl
    · have hin : ∀ k j, Below h k0 i k j → InConfig y h k j := fun k j hb => .inl ⟨k0, i, hm, hb⟩
      rcases mem_auxPlan_sub _ _ _ _ _ ho with rfl | ⟨hobs, rfl | rfl | ⟨hu, rfl⟩⟩ | ⟨⟨n, c⟩, hc, ho⟩
      · exact .inr (.inr (.inl ⟨i, hm⟩))
      · exact .inr (.inr (.inr ⟨k0, .inr (IsEdge.observed (hin _ _ (.here _ _)) hobs)⟩))
      · exact IsEdge.observed (hin _ _ (.here _ _)) hobs
      · exact IsEdge.distance (hin _ _ (.here _ _)) hu
      · rw [mem_auxSecPlan] at ho
        have hin' := hin _ _ (.step hc (.here _ _))
        rcases ho with rfl | rfl | ⟨hu, rfl⟩ | ⟨hobs, rfl | rfl⟩ | ho
        · exact IsEdge.uses (hin _ _ (.here _ _)) hc
        · exact .inr (.inr (.inr ⟨_, .inl (IsEdge.uses (hin _ _ (.here _ _)) hc)⟩))
        · exact IsEdge.distance hin' hu
        · exact .inr (.inr (.inr ⟨_, .inr (IsEdge.observed hin' hobs)⟩))
        · exact IsEdge.observed hin' hobs
        · exact sec k0 i n c hc hin o ho
  rw [hend]
  refine ⟨?_, ?_⟩
  · intro u v huv
    rw [run_edges] at huv
    rcases huv with huv | huv
    · exact .inl huv
    · exact .inr (key _ huv)
  · intro n hn
    rw [run_keys] at hn
    rcases hn with hn | ⟨o, ho, hmn⟩
    · exact .inl hn
    · right
      have := key o ho
      cases o with
      | node m b => cases hmn; exact this
      | edge u v =>
        rcases hmn with rfl | rfl
        · exact .inr (.inr (.inr ⟨_, .inl this⟩))
        · exact .inr (.inr (.inr ⟨_, .inr this⟩))

theorem run_nodup (ops : List GOp) (g : Graph) (hn : g.nodes.keys.Nodup) :
    (ops.foldl GOp.run g).nodes.keys.Nodup := by
  have node : ∀ (g : Graph) n b, g.nodes.keys.Nodup → (g.addNode n b).nodes.keys.Nodup := by
    intro g n b hn
    unfold Graph.addNode
    cases Dict.get? g.nodes n with
    | none => exact Dict.nodup_keys_set _ _ _ hn
    | some w =>
      cases b with
      | none => exact hn
      | some b => exact Dict.nodup_keys_set _ _ _ hn
  induction ops generalizing g with
  | nil => exact hn
  | cons o ops ih =>
    rw [List.foldl_cons]
    apply ih
    cases o with
    | node n b => exact node g n b hn
    | edge u v =>
      have : ∀ g' : Graph, (if (u, v) ∈ g'.edges then g'
          else { g' with edges := g'.edges ++ [(u, v)] }).nodes = g'.nodes := by
        intro g'; split <;> rfl
      simp only [GOp.run, Graph.addEdge, this]
      exact node _ _ _ (node _ _ _ hn)

/-- **C44** (reading again): reading `synth.graph` a second time gives the same graph —
same nodes in the same order with the same attributes, same edges. -/
theorem C44_again (fuel : Nat) (y : Synth F) (h : Heap F G) (g g' : Graph)
    (hn : g.nodes.keys.Nodup) (hk : buildGraph fuel y h g = .ok () g') :
    buildGraph fuel y h g' = .ok () g' := by
  obtain ⟨he, e⟩ := (buildGraph_ok_iff _ _ _ _ _).1 hk
  rw [buildGraph_ok_iff]
  refine ⟨he, ?_⟩
  generalize (buildPlan fuel y h).ops = ops at e
  have hk' : ∀ n, (∃ o ∈ ops, o.Mentions n) → n ∈ g'.nodes.keys := by
    intro n hm
    rw [e, run_keys]
    exact .inr hm
  have he' : ∀ u v, GOp.edge u v ∈ ops → (u, v) ∈ g'.edges := by
    intro u v hm
    rw [e, run_edges]
    exact .inr hm
  obtain ⟨s1, s2⟩ := run_same ops g' hk' he'
  have hn' : g'.nodes.keys.Nodup := e ▸ run_nodup ops g hn
  have hattr : ∀ n, attrOf (ops.foldl GOp.run g') n = attrOf g' n := by
    intro n
    rw [run_attr]
    cases hla : lastAttr n ops with
    | none => rfl
    | some c => rw [e, run_attr, hla]
  have hnodes : g'.nodes = (ops.foldl GOp.run g').nodes := by
    apply dict_ext _ _ s1.symm hn'
    intro k hk
    have h1 : (Dict.get? g'.nodes k).isSome = true := (Dict.get?_isSome_iff _ _).2 hk
    have h2 : (Dict.get? (ops.foldl GOp.run g').nodes k).isSome = true :=
      (Dict.get?_isSome_iff _ _).2 (s1 ▸ hk)
    have h3 := hattr k
    unfold attrOf at h3
    cases e1 : Dict.get? g'.nodes k with
    | none => rw [e1] at h1; cases h1
    | some a =>
      cases e2 : Dict.get? (ops.foldl GOp.run g').nodes k with
      | none => rw [e2] at h2; cases h2
      | some b =>
        rw [e1, e2] at h3
        simp only [Option.bind_some, id] at h3
        rw [h3]
  rcases hg : ops.foldl GOp.run g' with ⟨n2, e2⟩
  rw [hg] at s2 hnodes
  cases g'
  simp only at s2 hnodes
  rw [s2, hnodes]

/-- **C44** (returns): if there is a luminosity source, attached samplers are no
secondaries, dependencies have smaller rank and there are enough stack frames, and no
dependency of a dependency uses the distance, then `synth.graph` is returned. -/
theorem C44_returns (fuel : Nat) (y : Synth F) (h : Heap F G) (g : Graph) (rank : Nat → Nat)
    (hl : y.derived ≠ none ∨ y.lumName ≠ none)
    (ha : ∀ k i, (k, i) ∈ y.aux → (h.samplers i).isSecondary = false)
    (hr : ∀ k j, InConfig y h k j → ∀ n c, (n, c) ∈ (h.samplers j).secondaries → rank c < rank j)
    (hfuel : ∀ k j, InConfig y h k j → rank j < fuel)
    (hu : ∀ k0 j0, InConfig y h k0 j0 → ∀ n c, (n, c) ∈ (h.samplers j0).secondaries →
      ∀ k j, Under h c k j → (h.samplers j).usesDistance = false) :
    ∃ g', buildGraph fuel y h g = .ok () g' := by
  have sec : ∀ (k0 : String) (i : Nat) (n : String) (c : Nat), (n, c) ∈ (h.samplers i).secondaries →
      (∀ k j, Below h k0 i k j → InConfig y h k j) → (secsPlan h fuel c n).err = none := by
    intro k0 i n c hm hin
    apply secsPlan_ok h rank
    · exact fun k j hb => hr k j (hin k j (.step hm hb))
    · exact hfuel n c (hin n c (.step hm (.here _ _)))
    · exact hu k0 i (hin _ _ (.here _ _)) n c hm
  refine ⟨_, (buildGraph_ok_iff _ _ _ _ _).2 ⟨(buildPlan_err _ _ _).2 ⟨?_, ?_⟩, rfl⟩⟩
  · unfold lumPlan
    cases hd : y.derived with
    | some d =>
      simp only
      rw [derivedPlan_err]
      exact fun p hp => sec _ d p.1 p.2 hp (fun k j hb => .inr ⟨d, hd, hb⟩)
    | none =>
      cases hln : y.lumName with
      | some l => rfl
      | none =>
        rcases hl with h1 | h1
        · exact (h1 hd).elim
        · exact (h1 hln).elim
  · rintro ⟨k0, i⟩ hm
    rw [auxPlan_err]
    exact ⟨ha k0 i hm, fun p hp => sec k0 i p.1 p.2 hp (fun k j hb => .inl ⟨k0, i, hm, hb⟩)⟩

/-- **C44 is violated** (and no survey can be drawn) when a dependency of a dependency uses
the distance: `synth.graph` raises. -/
theorem C44_violated_nested (fuel : Nat) (y : Synth F) (h : Heap F G) (g g' : Graph)
    (hf : FlagsRight h) (k0 : String) (i : Nat) (hm : (k0, i) ∈ y.aux ∨ y.derived = some i)
    (n : String) (c : Nat) (hc : (n, c) ∈ (h.samplers i).secondaries) (k : String) (j : Nat)
    (hj : Under h c k j) (hu : (h.samplers j).usesDistance = true) :
    buildGraph fuel y h g ≠ .ok () g' := by
  intro hk
  obtain ⟨he, _⟩ := (buildGraph_ok_iff _ _ _ _ _).1 hk
  obtain ⟨hl, ha⟩ := (buildPlan_err _ _ _).1 he
  have : (secsPlan h fuel c n).err = none := by
    rcases hm with hm | hd
    · exact ((auxPlan_err _ _ _ _).1 (ha _ hm)).2 (n, c) hc
    · unfold lumPlan at hl
      rw [hd] at hl
      exact (derivedPlan_err _ _ _ _).1 hl (n, c) hc
  have := ((secsPlan_complete h hf fuel c n this).2 k j hj).1
  rw [hu] at this
  cases this

/-- **C44 is violated** without any luminosity source: `synth.graph` raises
`AttributeError`. -/
theorem C44_violated_noLuminosity (fuel : Nat) (y : Synth F) (h : Heap F G) (g : Graph)
    (hd : y.derived = none) (hl : y.lumName = none) :
    outcome (buildGraph fuel y h g) = .error .attribute := by
  rw [buildGraph_emits fuel y h g]
  have : (buildPlan fuel y h).err = some .attribute := by
    unfold buildPlan lumPlan
    rw [hd, hl]
    rfl
  unfold Plan.exec
  rw [this]
  rfl

/-- **C44 is violated** after `clean` (or any other change of the configuration): whatever
nodes and edges the graph had, it still has after it is built for the new
configuration. -/
theorem C44_violated_stale (fuel : Nat) (y : Synth F) (h : Heap F G) (g g' : Graph)
    (hk : buildGraph fuel y h g = .ok () g') :
    (∀ p ∈ g.edges, p ∈ g'.edges) ∧ ∀ n ∈ g.nodes.keys, n ∈ g'.nodes.keys := by
  obtain ⟨_, rfl⟩ := (buildGraph_ok_iff _ _ _ _ _).1 hk
  refine ⟨fun p hp => ?_, fun n hn => ?_⟩
  · rw [run_edges]; exact .inl hp
  · rw [run_keys]; exact .inl hn

/-! ### Examples -/

namespace GraphExample

open SurveyExample

/-- The graph of the example survey's synth: the diamond `a` over `b`, `c` over `d`. -/
def built : Graph := endState (buildGraph 10 synth heap { nodes := [("space", none)] })

theorem built_ok : buildGraph 10 synth heap { nodes := [("space", none)] } = .ok () built :=
  ok_of_isOk (by decide +kernel)

example : FlagsRight heap := by
  intro i hi
  match i with
  | 0 => rfl
  | 1 => rfl
  | 2 => rfl
  | 3 => exact absurd rfl hi
  | n + 4 => exact absurd rfl hi

example : ("b", "a") ∈ built.edges ∧ ("d", "b") ∈ built.edges ∧ ("d", "c") ∈ built.edges := by
  decide +kernel

theorem not_inConfig (y : Synth F) (h : Heap F G) (ha : y.aux = []) (hd : y.derived = none)
    (k : String) (j : Nat) : ¬ InConfig y h k j := by
  rintro (⟨k0, i, hm, _⟩ | ⟨d, e, _⟩)
  · rw [ha] at hm; cases hm
  · rw [hd] at e; cases e

/-- The synth after `clean`. -/
def cleaned : Synth Nat := { synth with aux := [] }

/-- The synth whose derived luminosity sampler is `a`. -/
def derivedSynth : Synth Nat := { synth with aux := [], derived := some 0 }

end GraphExample

open GraphExample SurveyExample

/-- **C44 is violated** by `clean`: attach `a`, look at the graph, remove everything, look at
it again; `a` and its dependencies are still there, although they are not part of the
configuration. -/
theorem C44_violated_clean : ∃ g g',
    buildGraph 10 synth heap { nodes := [("space", none)] } = .ok () g ∧
    buildGraph 10 cleaned heap g = .ok () g' ∧
    "a" ∈ g'.nodes.keys ∧ ("b", "a") ∈ g'.edges ∧ ¬ IsNode cleaned heap "a" := by
  have h2 : buildGraph 10 cleaned heap built = .ok () (endState (buildGraph 10 cleaned heap built)) :=
    ok_of_isOk (by decide +kernel)
  refine ⟨built, _, built_ok, h2, ?_, ?_, ?_⟩
  · exact (C44_violated_stale _ _ _ _ _ h2).2 _ (by decide +kernel)
  · exact (C44_violated_stale _ _ _ _ _ h2).1 _ (by decide +kernel)
  · have nc := not_inConfig cleaned heap rfl rfl
    have edge : ∀ u v, IsEdge cleaned heap u v → (u = "space" ∨ u = "lum") ∧ v = "obs_flux" := by
      intro u v he
      cases he with
      | position => exact ⟨.inl rfl, rfl⟩
      | luminosity _ l hl => cases hl; exact ⟨.inr rfl, rfl⟩
      | derived _ hd => cases hd
      | uses hc _ => exact (nc _ _ hc).elim
      | observed hc _ => exact (nc _ _ hc).elim
      | distance hc _ => exact (nc _ _ hc).elim
    rintro (e | e | ⟨i, hm⟩ | ⟨m, he | he⟩)
    · exact absurd e (by decide)
    · exact absurd e (by decide)
    · cases hm
    · rcases (edge _ _ he).1 with e | e
      · exact absurd e (by decide)
      · exact absurd e (by decide)
    · exact absurd (edge _ _ he).2 (by decide)

/-- **C44 is violated** for a derived luminosity sampler: its dependency `c` is observed, but
the graph has no edge from `c` to its observed node. -/
theorem C44_violated_derived : ∃ g,
    buildGraph 10 derivedSynth heap { nodes := [("space", none)] } = .ok () g ∧
    IsEdge derivedSynth heap "c" "c_obs" ∧ ("c", "c_obs") ∉ g.edges := by
  refine ⟨_, ok_of_isOk (by decide +kernel), ?_, by decide +kernel⟩
  exact IsEdge.observed (j := 2) (.inr ⟨0, rfl, .step (n := "c") (c := 2) (by decide) (.here _ _)⟩) rfl

/-- **C44 is violated** for an attached sampler that uses the distance but is not observed:
there is no edge from the position to it. -/
theorem C44_violated_distance : ∃ (h : Heap Nat Nat) (y : Synth Nat) (g : Graph),
    buildGraph 10 y h { nodes := [("space", none)] } = .ok () g ∧
    IsEdge y h "space" "a" ∧ ("space", "a") ∉ g.edges := by
  refine ⟨{ heap with samplers := fun i => { heap.samplers i with usesDistance := true
                                                                  isObserved := false
                                                                  secondaries := [] } },
    synth, _, ok_of_isOk (by decide +kernel), ?_, by decide +kernel⟩
  exact IsEdge.distance (j := 0) (.inl ⟨"a", 0, by decide, .here _ _⟩) rfl

/-- The hypotheses of `C44_returns` hold for the example. -/
example : ∃ g', buildGraph 10 synth heap { nodes := [("space", none)] } = .ok () g' := ⟨_, built_ok⟩

end Popsynth
