import Verif.Model.Graph
import Verif.Lemmas.Py

/-!
# `_build_graph` as a list of graph commands

Which nodes and edges `_build_graph` adds does not depend on the graph it starts from.  This
file computes them (`buildPlan`) and proves that `buildGraph` carries them out.
-/

set_option autoImplicit false
set_option linter.unusedSectionVars false

namespace Popsynth

variable {F G : Type}

/-- One call of `add_node` or `add_edge`. -/
inductive GOp where
  | node (n : String) (obs : Option Bool)
  | edge (u v : String)

def GOp.run (g : Graph) : GOp → Graph
  | .node n b => g.addNode n b
  | .edge u v => g.addEdge u v

/-- Commands, and the exception raised after them, if any. -/
structure Plan where
  ops : List GOp := []
  err : Option Err := none

namespace Plan

def exec (p : Plan) (g : Graph) : EStateM.Result Err Graph Unit :=
  match p.err with
  | none => .ok () (p.ops.foldl GOp.run g)
  | some e => .error e (p.ops.foldl GOp.run g)

def seq (p q : Plan) : Plan :=
  match p.err with
  | none => { ops := p.ops ++ q.ops, err := q.err }
  | some _ => p

def all {α : Type} (f : α → Plan) : List α → Plan
  | [] => {}
  | x :: l => (f x).seq (all f l)

def cond (b : Bool) (p : Plan) : Plan := if b then p else {}

theorem seq_err (p q : Plan) : (p.seq q).err = none ↔ p.err = none ∧ q.err = none := by
  unfold seq
  cases h : p.err with
  | none => simp
  | some e => simp [h]

theorem seq_assoc (p q r : Plan) : (p.seq q).seq r = p.seq (q.seq r) := by
  unfold seq
  cases hp : p.err with
  | none =>
    cases hq : q.err with
    | none => simp
    | some e => simp [hq]
  | some e => simp [hp]

theorem mem_seq (p q : Plan) (h : p.err = none) (o : GOp) :
    o ∈ (p.seq q).ops ↔ o ∈ p.ops ∨ o ∈ q.ops := by
  unfold seq
  rw [h]
  simp

theorem mem_seq_sub (p q : Plan) (o : GOp) : o ∈ (p.seq q).ops → o ∈ p.ops ∨ o ∈ q.ops := by
  unfold seq
  cases h : p.err with
  | none => simp
  | some e => exact fun h => .inl h

theorem all_err {α : Type} (f : α → Plan) (l : List α) :
    (all f l).err = none ↔ ∀ x ∈ l, (f x).err = none := by
  induction l with
  | nil => simp [all]
  | cons x l ih => rw [all, seq_err, ih]; simp

theorem mem_all {α : Type} (f : α → Plan) (l : List α) (h : ∀ x ∈ l, (f x).err = none) (o : GOp) :
    o ∈ (all f l).ops ↔ ∃ x ∈ l, o ∈ (f x).ops := by
  induction l with
  | nil => simp [all]
  | cons x l ih =>
    rw [all, mem_seq _ _ (h x (by simp)), ih (fun x hx => h x (by simp [hx]))]
    simp

theorem mem_all_sub {α : Type} (f : α → Plan) (l : List α) (o : GOp) :
    o ∈ (all f l).ops → ∃ x ∈ l, o ∈ (f x).ops := by
  induction l with
  | nil => simp [all]
  | cons x l ih =>
    intro h
    rcases mem_seq_sub _ _ _ h with h | h
    · exact ⟨x, by simp, h⟩
    · obtain ⟨x, hx, h⟩ := ih h
      exact ⟨x, by simp [hx], h⟩

end Plan

/-- `m` carries out the plan, whatever the graph. -/
def Emits (m : Py Graph Unit) (p : Plan) : Prop := ∀ g, m g = p.exec g

namespace Emits

theorem pure' : Emits (pure ()) {} := fun _ => rfl
theorem raise' (e : Err) : Emits (raise e) { err := some e } := fun _ => rfl

theorem modify' (f : Graph → Graph) (ops : List GOp) (h : ∀ g, f g = ops.foldl GOp.run g) :
    Emits (modify f) { ops := ops } := fun g => by
  show EStateM.Result.ok () (f g) = _
  rw [h g]; rfl

theorem bind' {m m' : Py Graph Unit} {p q : Plan} (h : Emits m p) (h' : Emits m' q) :
    Emits (m >>= fun _ => m') (p.seq q) := by
  intro g
  rw [bind_apply, h g]
  unfold Plan.exec Plan.seq
  cases hp : p.err with
  | none =>
    simp only [h' _, Plan.exec, List.foldl_append]
  | some e => simp [hp]

theorem forEach' {α : Type} (l : List α) (m : α → Py Graph Unit) (p : α → Plan)
    (h : ∀ x ∈ l, Emits (m x) (p x)) : Emits (forEach l m) (Plan.all p l) := by
  induction l with
  | nil => exact pure'
  | cons x l ih =>
    rw [forEach_cons, Plan.all]
    exact bind' (h x (by simp)) (ih fun x hx => h x (by simp [hx]))

theorem ite' {b : Bool} {m : Py Graph Unit} {p : Plan} (h : Emits m p) :
    Emits (if b then m else pure ()) (Plan.cond b p) := by
  cases b with
  | true => exact h
  | false => exact pure'

theorem iteThen {b : Bool} {m m' : Py Graph Unit} {p q : Plan} (h : Emits m p) (h' : Emits m' q) :
    Emits (if b = true then (m >>= fun _ => m') else m') ((Plan.cond b p).seq q) := by
  cases b with
  | true => exact bind' h h'
  | false => exact h'

end Emits

/-- The commands of `get_secondary_properties`. -/
def secsPlan (h : Heap F G) : Nat → Nat → String → Plan
  | 0, _, _ => { err := some .recursion }
  | k + 1, i, primary =>
    Plan.cond (h.samplers i).hasSecondary
      (Plan.all (fun p =>
        (Plan.mk [.node p.1 (some false), .edge p.1 primary] none).seq
          ((Plan.cond (h.samplers p.2).isObserved
            { ops := [.node (h.samplers p.2).obsName (some false), .edge p.1 (h.samplers p.2).obsName] }).seq
          ((Plan.cond (h.samplers p.2).usesDistance { err := some .attribute }).seq
            (secsPlan h k p.2 p.1)))) (h.samplers i).secondaries)

theorem graphSecs_emits (h : Heap F G) (k i : Nat) (primary : String) :
    Emits (graphSecs h k i primary) (secsPlan h k i primary) := by
  induction k generalizing i primary with
  | zero => exact Emits.raise' _
  | succ k ih =>
    unfold graphSecs secsPlan
    refine Emits.ite' (Emits.forEach' _ _ _ fun p _ => ?_)
    exact Emits.bind' (Emits.modify' _ _ fun _ => rfl)
      (Emits.iteThen (Emits.modify' _ _ fun _ => rfl)
        (Emits.iteThen (Emits.raise' _) (ih _ _)))

/-- The commands of `graphDerived`. -/
def derivedPlan (fuel : Nat) (y : Synth F) (h : Heap F G) (d : Nat) : Plan :=
  (Plan.mk [.node (h.samplers d).name none, .edge (h.samplers d).name "obs_flux"] none).seq
    ((Plan.cond (h.samplers d).usesDistance
      { ops := [.edge y.spatialName (h.samplers d).name] }).seq
    (Plan.all (fun p =>
      (Plan.mk [.node p.1 none, .edge p.1 (h.samplers d).name] none).seq (secsPlan h fuel p.2 p.1))
      (h.samplers d).secondaries))

theorem graphDerived_emits (fuel : Nat) (y : Synth F) (h : Heap F G) (d : Nat) :
    Emits (graphDerived fuel y h d) (derivedPlan fuel y h d) := by
  unfold graphDerived derivedPlan
  exact Emits.bind' (Emits.modify' _ _ fun _ => rfl)
    (Emits.iteThen (Emits.modify' _ _ fun _ => rfl)
      (Emits.forEach' _ _ _ fun p _ =>
        Emits.bind' (Emits.modify' _ _ fun _ => rfl) (graphSecs_emits _ _ _ _)))

def auxSecPlan (fuel : Nat) (y : Synth F) (h : Heap F G) (k : String) (p : String × Nat) : Plan :=
  (Plan.mk [.edge p.1 k, .node p.1 (some false)] none).seq
    ((Plan.cond (h.samplers p.2).usesDistance { ops := [.edge y.spatialName p.1] }).seq
    ((Plan.cond (h.samplers p.2).isObserved
      { ops := [.node (h.samplers p.2).obsName (some true), .edge p.1 (h.samplers p.2).obsName] }).seq
      (secsPlan h fuel p.2 p.1)))

theorem graphAuxSec_emits (fuel : Nat) (y : Synth F) (h : Heap F G) (k : String)
    (p : String × Nat) : Emits (graphAuxSec fuel y h k p) (auxSecPlan fuel y h k p) := by
  unfold graphAuxSec auxSecPlan
  exact Emits.bind' (Emits.modify' _ _ fun _ => rfl)
    (Emits.iteThen (Emits.modify' _ _ fun _ => rfl)
      (Emits.iteThen (Emits.modify' _ _ fun _ => rfl) (graphSecs_emits _ _ _ _)))

def auxPlan (fuel : Nat) (y : Synth F) (h : Heap F G) (kv : String × Nat) : Plan :=
  (Plan.cond (h.samplers kv.2).isSecondary { err := some .assertion }).seq
    ((Plan.mk [.node kv.1 (some false)] none).seq
    ((Plan.cond (h.samplers kv.2).isObserved
      ((Plan.mk [.node (h.samplers kv.2).obsName (some false),
        .edge kv.1 (h.samplers kv.2).obsName] none).seq
        (Plan.cond (h.samplers kv.2).usesDistance { ops := [.edge y.spatialName kv.1] }))).seq
      (Plan.all (auxSecPlan fuel y h kv.1) (h.samplers kv.2).secondaries)))

theorem pyAssert_emits (b : Bool) :
    Emits (pyAssert (!b)) (Plan.cond b { err := some .assertion }) := by
  cases b <;> intro g <;> rfl

theorem graphAux_emits (fuel : Nat) (y : Synth F) (h : Heap F G) (kv : String × Nat) :
    Emits (graphAux fuel y h kv) (auxPlan fuel y h kv) := by
  unfold graphAux auxPlan
  refine Emits.bind' (pyAssert_emits _) (Emits.bind' (Emits.modify' _ _ fun _ => rfl) ?_)
  have hk := Emits.forEach' (h.samplers kv.2).secondaries (graphAuxSec fuel y h kv.1)
    (auxSecPlan fuel y h kv.1) fun p _ => graphAuxSec_emits _ _ _ _ _
  cases (h.samplers kv.2).isObserved with
  | false => exact hk
  | true =>
    simp only [Plan.cond, if_true]
    rw [Plan.seq_assoc]
    exact Emits.bind' (Emits.modify' _ _ fun _ => rfl)
      (Emits.iteThen (Emits.modify' _ _ fun _ => rfl) hk)

def lumPlan (fuel : Nat) (y : Synth F) (h : Heap F G) : Plan :=
  match y.derived with
  | some d => derivedPlan fuel y h d
  | none => match y.lumName with
    | none => { err := some .attribute }
    | some l => { ops := [.edge l "obs_flux"] }

/-- The commands of `_build_graph`. -/
def buildPlan (fuel : Nat) (y : Synth F) (h : Heap F G) : Plan :=
  (Plan.mk [.node "obs_flux" (some true), .edge y.spatialName "obs_flux"] none).seq
    ((lumPlan fuel y h).seq (Plan.all (auxPlan fuel y h) y.aux))

theorem buildGraph_emits (fuel : Nat) (y : Synth F) (h : Heap F G) :
    Emits (buildGraph fuel y h) (buildPlan fuel y h) := by
  unfold buildGraph buildPlan lumPlan
  cases hd : y.derived with
  | some d =>
    exact Emits.bind' (Emits.modify' _ _ fun _ => rfl)
      (Emits.bind' (graphDerived_emits _ _ _ _)
        (Emits.forEach' _ _ _ fun p _ => graphAux_emits _ _ _ _))
  | none =>
    cases hl : y.lumName with
    | none =>
      exact Emits.bind' (Emits.modify' _ _ fun _ => rfl)
        (Emits.bind' (Emits.raise' _)
          (Emits.forEach' _ _ _ fun p _ => graphAux_emits _ _ _ _))
    | some l =>
      exact Emits.bind' (Emits.modify' _ _ fun _ => rfl)
        (Emits.bind' (Emits.modify' _ _ fun _ => rfl)
          (Emits.forEach' _ _ _ fun p _ => graphAux_emits _ _ _ _))

/-! ### Effect of commands -/

theorem addNode_keys (g : Graph) (n m : String) (b : Option Bool) :
    m ∈ (g.addNode n b).nodes.keys ↔ m = n ∨ m ∈ g.nodes.keys := by
  unfold Graph.addNode
  cases hg : Dict.get? g.nodes n with
  | none =>
    simp only
    rw [← Dict.get?_isSome_iff, ← Dict.get?_isSome_iff, Dict.get?_set]
    by_cases e : n = m
    · subst e; simp
    · simp [e, Ne.symm e]
  | some w =>
    have hn : n ∈ g.nodes.keys := by rw [← Dict.get?_isSome_iff, hg]; rfl
    cases b with
    | none =>
      simp only
      constructor
      · exact .inr
      · rintro (rfl | h)
        · exact hn
        · exact h
    | some b =>
      simp only
      rw [← Dict.get?_isSome_iff, ← Dict.get?_isSome_iff, Dict.get?_set]
      by_cases e : n = m
      · subst e; simp
      · simp [e, Ne.symm e]

theorem addNode_edges (g : Graph) (n : String) (b : Option Bool) :
    (g.addNode n b).edges = g.edges := by
  unfold Graph.addNode
  cases Dict.get? g.nodes n with
  | none => rfl
  | some w => cases b <;> rfl

theorem addEdge_keys (g : Graph) (u v m : String) :
    m ∈ (g.addEdge u v).nodes.keys ↔ m = u ∨ m = v ∨ m ∈ g.nodes.keys := by
  unfold Graph.addEdge
  simp only
  have : ∀ g' : Graph, (if (u, v) ∈ g'.edges then g' else { g' with edges := g'.edges ++ [(u, v)] }).nodes
      = g'.nodes := by intro g'; split <;> rfl
  rw [this, addNode_keys, addNode_keys]
  constructor
  · rintro (h | h | h)
    · exact .inr (.inl h)
    · exact .inl h
    · exact .inr (.inr h)
  · rintro (h | h | h)
    · exact .inr (.inl h)
    · exact .inl h
    · exact .inr (.inr h)

theorem addEdge_edges (g : Graph) (u v : String) (p : String × String) :
    p ∈ (g.addEdge u v).edges ↔ p = (u, v) ∨ p ∈ g.edges := by
  unfold Graph.addEdge
  simp only
  split
  · rename_i h
    rw [addNode_edges, addNode_edges] at h
    rw [addNode_edges, addNode_edges]
    constructor
    · exact .inr
    · rintro (rfl | h')
      · exact h
      · exact h'
  · simp only [addNode_edges, List.mem_append, List.mem_singleton]
    exact or_comm

theorem run_edges (ops : List GOp) (g : Graph) (p : String × String) :
    p ∈ (ops.foldl GOp.run g).edges ↔ p ∈ g.edges ∨ GOp.edge p.1 p.2 ∈ ops := by
  induction ops generalizing g with
  | nil => simp
  | cons o ops ih =>
    rw [List.foldl_cons, ih]
    cases o with
    | node n b => simp [GOp.run, addNode_edges]
    | edge u v =>
      simp only [GOp.run, addEdge_edges, List.mem_cons, GOp.edge.injEq]
      constructor
      · rintro ((rfl | h) | h)
        · exact .inr (.inl ⟨rfl, rfl⟩)
        · exact .inl h
        · exact .inr (.inr h)
      · rintro (h | ⟨h1, h2⟩ | h)
        · exact .inl (.inr h)
        · exact .inl (.inl (Prod.ext h1 h2))
        · exact .inr h

/-- The node a command mentions. -/
def GOp.Mentions (n : String) : GOp → Prop
  | .node m _ => n = m
  | .edge u v => n = u ∨ n = v

theorem run_keys (ops : List GOp) (g : Graph) (n : String) :
    n ∈ (ops.foldl GOp.run g).nodes.keys ↔ n ∈ g.nodes.keys ∨ ∃ o ∈ ops, o.Mentions n := by
  induction ops generalizing g with
  | nil => simp
  | cons o ops ih =>
    rw [List.foldl_cons, ih]
    cases o with
    | node m b =>
      simp only [GOp.run, addNode_keys, List.mem_cons, exists_eq_or_imp, GOp.Mentions]
      constructor
      · rintro ((h | h) | h)
        · exact .inr (.inl h)
        · exact .inl h
        · exact .inr (.inr h)
      · rintro (h | h | h)
        · exact .inl (.inr h)
        · exact .inl (.inl h)
        · exact .inr h
    | edge u v =>
      simp only [GOp.run, addEdge_keys, List.mem_cons, exists_eq_or_imp, GOp.Mentions]
      constructor
      · rintro ((h | h | h) | h)
        · exact .inr (.inl (.inl h))
        · exact .inr (.inl (.inr h))
        · exact .inl h
        · exact .inr (.inr h)
      · rintro (h | (h | h) | h)
        · exact .inl (.inr (.inr h))
        · exact .inl (.inl h)
        · exact .inl (.inr (.inl h))
        · exact .inr h

/-! ### Doing it twice -/

/-- The last attribute written for a node. -/
def lastAttr (n : String) : List GOp → Option Bool
  | [] => none
  | .node m (some b) :: l => match lastAttr n l with
    | some c => some c
    | none => if m = n then some b else none
  | .node _ none :: l => lastAttr n l
  | .edge _ _ :: l => lastAttr n l

/-- The attribute of a node, flattened. -/
def attrOf (g : Graph) (n : String) : Option Bool := (Dict.get? g.nodes n).bind id

theorem attr_addNode (g : Graph) (n m : String) (b : Option Bool) :
    attrOf (g.addNode n b) m = if n = m then (match b with | some c => some c | none => attrOf g m)
      else attrOf g m := by
  unfold Graph.addNode attrOf
  cases hg : Dict.get? g.nodes n with
  | none =>
    simp only [Dict.get?_set]
    by_cases e : n = m
    · subst e
      cases b <;> simp [hg]
    · simp [e]
  | some w =>
    cases b with
    | none => simp
    | some b =>
      simp only [Dict.get?_set]
      by_cases e : n = m <;> simp [e]

theorem attr_addEdge (g : Graph) (u v m : String) : attrOf (g.addEdge u v) m = attrOf g m := by
  have : ∀ g' : Graph, attrOf (if (u, v) ∈ g'.edges then g'
      else { g' with edges := g'.edges ++ [(u, v)] }) m = attrOf g' m := by
    intro g'; split <;> rfl
  unfold Graph.addEdge
  simp only [this, attr_addNode]
  split <;> split <;> rfl

theorem run_attr (ops : List GOp) (g : Graph) (n : String) :
    attrOf (ops.foldl GOp.run g) n = match lastAttr n ops with
      | some c => some c
      | none => attrOf g n := by
  induction ops generalizing g with
  | nil => rfl
  | cons o ops ih =>
    rw [List.foldl_cons, ih]
    cases o with
    | edge u v => simp only [GOp.run, attr_addEdge, lastAttr]
    | node m b =>
      simp only [GOp.run, attr_addNode]
      cases b with
      | none => simp only [lastAttr]; split <;> (try split) <;> rfl
      | some b =>
        simp only [lastAttr]
        cases lastAttr n ops with
        | some c => rfl
        | none => by_cases e : m = n <;> simp [e]

theorem addNode_keysEq (g : Graph) (n : String) (b : Option Bool) (h : n ∈ g.nodes.keys) :
    (g.addNode n b).nodes.keys = g.nodes.keys := by
  unfold Graph.addNode
  rw [← Dict.get?_isSome_iff] at h
  cases hg : Dict.get? g.nodes n with
  | none => rw [hg] at h; cases h
  | some w =>
    cases b with
    | none => rfl
    | some b =>
      simp only
      rw [Dict.keys_set, if_pos]
      rw [← Dict.get?_isSome_iff, hg]; rfl

theorem run_same (ops : List GOp) (g : Graph) (hk : ∀ n, (∃ o ∈ ops, o.Mentions n) → n ∈ g.nodes.keys)
    (he : ∀ u v, GOp.edge u v ∈ ops → (u, v) ∈ g.edges) :
    (ops.foldl GOp.run g).nodes.keys = g.nodes.keys ∧ (ops.foldl GOp.run g).edges = g.edges := by
  induction ops generalizing g with
  | nil => exact ⟨rfl, rfl⟩
  | cons o ops ih =>
    rw [List.foldl_cons]
    have step : (GOp.run g o).nodes.keys = g.nodes.keys ∧ (GOp.run g o).edges = g.edges := by
      cases o with
      | node n b =>
        exact ⟨addNode_keysEq g n b (hk n ⟨.node n b, by simp, rfl⟩), addNode_edges _ _ _⟩
      | edge u v =>
        have hu := hk u ⟨.edge u v, by simp, Or.inl rfl⟩
        have hv := hk v ⟨.edge u v, by simp, Or.inr rfl⟩
        have huv := he u v (by simp)
        simp only [GOp.run, Graph.addEdge]
        rw [if_pos (by rw [addNode_edges, addNode_edges]; exact huv)]
        refine ⟨?_, by rw [addNode_edges, addNode_edges]⟩
        rw [addNode_keysEq _ _ _ (by rw [addNode_keysEq _ _ _ hu]; exact hv), addNode_keysEq _ _ _ hu]
    obtain ⟨h1, h2⟩ := ih (GOp.run g o)
      (fun n ⟨o, ho, hm⟩ => by rw [step.1]; exact hk n ⟨o, by simp [ho], hm⟩)
      (fun u v hm => by rw [step.2]; exact he u v (by simp [hm]))
    exact ⟨h1.trans step.1, h2.trans step.2⟩

theorem dict_ext {α : Type} (d d' : Dict α) (hk : d.keys = d'.keys) (hn : d.keys.Nodup)
    (h : ∀ k ∈ d.keys, d.get? k = d'.get? k) : d = d' := by
  induction d generalizing d' with
  | nil =>
    cases d' with
    | nil => rfl
    | cons p d' => simp [Dict.keys] at hk
  | cons p d ih =>
    cases d' with
    | nil => simp [Dict.keys] at hk
    | cons p' d' =>
      obtain ⟨k, v⟩ := p
      obtain ⟨k', v'⟩ := p'
      simp only [Dict.keys, List.map_cons, List.cons.injEq] at hk
      obtain ⟨rfl, hk⟩ := hk
      simp only [Dict.keys, List.map_cons, List.nodup_cons] at hn
      have hv : v = v' := by
        have := h k (by simp [Dict.keys])
        simpa [Dict.get?] using this
      subst hv
      rw [ih d' hk hn.2]
      intro k2 hk2
      have hne : k ≠ k2 := by
        rintro rfl
        exact hn.1 hk2
      have := h k2 (by simp only [Dict.keys, List.map_cons, List.mem_cons]; exact .inr hk2)
      simpa [Dict.get?, hne] using this

end Popsynth
