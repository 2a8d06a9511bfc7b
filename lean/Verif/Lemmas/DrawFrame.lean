import Verif.Lemmas.Draw

/-!
What a draw can do at most, whether it returns or raises, on any sampler graph;
resets; collecting.
-/

set_option linter.unusedSectionVars false

namespace Popsynth
open Spec
variable {F G : Type}

theorem forEach_inv {σ α : Type} {P : σ → Prop} {f : α → Py σ Unit} :
    ∀ {xs : List α} {s : σ}, P s → (∀ x ∈ xs, ∀ s1, P s1 → P (endState (f x s1))) →
      P (endState (forEach xs f s))
  | [], _, h, _ => h
  | x :: xs, s, h, hf => by
    have h1 := hf x (by simp) s h
    rw [forEach_cons, bind_apply]
    cases hx : f x s with
    | ok a t => rw [hx] at h1; exact forEach_inv h1 fun y hy => hf y (by simp [hy])
    | error e t => rw [hx] at h1; exact h1

theorem bind_inv {σ α β : Type} {P : σ → Prop} {m : Py σ α} {f : α → Py σ β} {s : σ}
    (h1 : P (endState (m s))) (h2 : ∀ a t, m s = .ok a t → P t → P (endState (f a t))) :
    P (endState ((m >>= f) s)) := by
  rw [bind_apply]
  cases hm : m s with
  | ok a t => rw [hm] at h1; exact h2 a t hm h1
  | error e t => rw [hm] at h1; exact h1

/-- At most sampler `i` changes, keeping its static part and staying sampled. -/
def OnlyAt (i : Nat) (h h' : Heap F G) : Prop :=
  (∀ j, j ≠ i → h'.samplers j = h.samplers j) ∧
  (h'.samplers i).static = (h.samplers i).static ∧
  ((h.samplers i).isSampled = true → (h'.samplers i).isSampled = true)

theorem OnlyAt.refl (i : Nat) (h : Heap F G) : OnlyAt i h h := ⟨fun _ _ => rfl, rfl, id⟩

theorem OnlyAt.trans {i : Nat} {a b c : Heap F G} (h1 : OnlyAt i a b) (h2 : OnlyAt i b c) :
    OnlyAt i a c :=
  ⟨fun j hj => (h2.1 j hj).trans (h1.1 j hj), h2.2.1.trans h1.2.1, fun h => h2.2.2 (h1.2.2 h)⟩

theorem OnlyAt.of_eq {i : Nat} {h h' : Heap F G} (e : h'.samplers = h.samplers) : OnlyAt i h h' :=
  ⟨fun j _ => by rw [e], by rw [e], by rw [e]; exact id⟩

theorem OnlyAt.mod {i : Nat} (h : Heap F G) (f : Sampler F → Sampler F)
    (h1 : ∀ s, (f s).static = s.static) (h2 : ∀ s, s.isSampled = true → (f s).isSampled = true) :
    OnlyAt i h (h.modSampler i f) := by
  refine ⟨fun j hj => modSampler_ne _ _ hj, ?_, ?_⟩
  · rw [modSampler_same]; exact h1 _
  · rw [modSampler_same]; exact h2 _

theorem runCode_only (c : SView F → Nat → G → SOut F G) (i n : Nat) :
    Keeps (OnlyAt (F := F) (G := G) i) (runCode c i n) := by
  intro h
  have key : ∀ o : SOut F G, OnlyAt i h { h.modSampler i (fun s =>
      { s with trueVals := o.trueVals, obsVals := o.obsVals, params := o.params })
        with rng := o.rng } := by
    intro o
    refine OnlyAt.trans (OnlyAt.mod h (fun s =>
      { s with trueVals := o.trueVals, obsVals := o.obsVals, params := o.params })
        (fun _ => rfl) (fun _ hs => hs)) (OnlyAt.of_eq rfl)
  unfold runCode
  simp only
  split <;> exact key _

section
variable [LE F] [DecidableLE F] [OfNat F 0] [OfNat F 1]

theorem finishDraw_only (w : World F G) (i n : Nat) :
    Keeps (OnlyAt (F := F) (G := G) i) (finishDraw w i n) := by
  have ht : ∀ a b c : Heap F G, OnlyAt i a b → OnlyAt i b c → OnlyAt i a c :=
    fun _ _ _ => OnlyAt.trans
  unfold finishDraw
  refine Keeps.bind' ht (Keeps.modify' fun h => OnlyAt.of_eq rfl) fun _ => ?_
  refine Keeps.bind' ht (runCode_only _ _ _) fun _ => ?_
  refine Keeps.bind' ht ?_ fun _ => ?_
  · intro h
    unfold observe
    split
    · exact runCode_only _ _ _ h
    · exact OnlyAt.mod h (fun s => { s with obsVals := s.trueVals }) (fun _ => rfl) fun _ hs => hs
  refine Keeps.bind' ht (Keeps.modify' fun h => OnlyAt.of_eq rfl) fun _ => ?_
  refine Keeps.bind' ht (Keeps.get' (OnlyAt.refl i)) fun h => ?_
  refine Keeps.bind' ht ?_ fun _ => ?_
  · unfold pyAssert
    exact Keeps.ite' (Keeps.pure' (OnlyAt.refl i) _) (Keeps.raise' (OnlyAt.refl i) _)
  refine Keeps.bind' ht ?_ fun _ => ?_
  · unfold pyAssert
    exact Keeps.ite' (Keeps.pure' (OnlyAt.refl i) _) (Keeps.raise' (OnlyAt.refl i) _)
  refine Keeps.bind' ht (Keeps.modify' fun h => OnlyAt.mod h _ (fun _ => rfl) fun _ _ => rfl)
    fun _ => ?_
  refine Keeps.bind' ht ?_ fun _ => ?_
  · intro h
    unfold drawSelector withSelector
    split <;> exact OnlyAt.of_eq rfl
  refine Keeps.bind' ht (Keeps.get' (OnlyAt.refl i)) fun h => ?_
  refine Keeps.bind' ht (Keeps.liftE' (OnlyAt.refl i) _) fun _ => ?_
  exact Keeps.modify' fun h => OnlyAt.mod h _ (fun _ => rfl) fun _ hs => hs

theorem giveSelector_samplers (i : Nat) (h : Heap F G) :
    (endState (giveSelector i h)).samplers = h.samplers := by
  unfold giveSelector
  apply bind_inv (P := fun t : Heap F G => t.samplers = h.samplers)
  · unfold giveDistance
    split
    · split <;> rfl
    · rfl
  · intro _ t _ ht
    unfold giveLuminosity
    split
    · exact ht
    · exact ht

/-- What drawing `i` may have done so far: nothing outside the reachable part,
static parts kept, nothing un-sampled, newly sampled samplers are reachable through
unsampled ones. -/
structure Fr (i : Nat) (h h' : Heap F G) : Prop where
  off : ∀ j, ¬ Reach h.children i j → h'.samplers j = h.samplers j
  static : ∀ j, (h'.samplers j).static = (h.samplers j).static
  grow : ∀ j, h.sampled j = true → h'.sampled j = true
  newly : ∀ j, h'.sampled j = true → h.sampled j = true ∨ ReachU h.children h.sampled i j

theorem Fr.children {i : Nat} {h h' : Heap F G} (f : Fr i h h') : h'.children = h.children := by
  funext j; simp only [Heap.children, static_secondaries (f.static j)]

theorem Fr.refl (i : Nat) (h : Heap F G) : Fr i h h :=
  ⟨fun _ _ => rfl, fun _ => rfl, fun _ h => h, fun _ h => .inl h⟩

theorem Fr.of_eq {i : Nat} {h h1 h2 : Heap F G} (f : Fr i h h1) (e : h2.samplers = h1.samplers) :
    Fr i h h2 := by
  have hs : h2.sampled = h1.sampled := by funext j; simp only [Heap.sampled, e]
  exact ⟨fun j hj => by rw [e]; exact f.off j hj, fun j => by rw [e]; exact f.static j,
    fun j hj => by rw [hs]; exact f.grow j hj, fun j hj => f.newly j (by rw [← hs]; exact hj)⟩

theorem prepSecondary_fr {i c : Nat} {h hm : Heap F G} (f : Fr i h hm) (hc : c ∈ h.children i) :
    Fr i h (endState (prepSecondary i c hm)) := by
  unfold prepSecondary
  split
  · split
    · exact f
    · rename_i sp _
      have key : ∀ k, (endState (setSpatialValues (G := G) c sp hm)).samplers k =
          if k = c then { hm.samplers k with spatial := some sp } else hm.samplers k := fun k => rfl
      have hs : ∀ j, (endState (setSpatialValues (G := G) c sp hm)).sampled j = hm.sampled j := by
        intro j; simp only [Heap.sampled, key]; split <;> rfl
      refine ⟨?_, ?_, ?_, ?_⟩
      · intro j hj
        have : j ≠ c := by rintro rfl; exact hj (.step hc (.here _))
        rw [key, if_neg this]; exact f.off j hj
      · intro j; rw [key]; split
        · exact f.static j
        · exact f.static j
      · intro j hj; rw [hs]; exact f.grow j hj
      · intro j hj; rw [hs] at hj; exact f.newly j hj
  · exact f

/-- Draw of a child inside a draw of `i`. -/
theorem Fr.child {i c : Nat} {h h1 h2 : Heap F G} (f : Fr i h h1) (g : Fr c h1 h2)
    (hc : c ∈ h.children i) (hu : h.sampled i = false) : Fr i h h2 := by
  have hch := f.children
  refine ⟨?_, ?_, ?_, ?_⟩
  · intro j hj
    rw [g.off j, f.off j hj]
    intro hr
    rw [hch] at hr
    exact hj (.step hc hr)
  · intro j; exact (g.static j).trans (f.static j)
  · intro j hj; exact g.grow j (f.grow j hj)
  · intro j hj
    rcases g.newly j hj with h' | h'
    · exact f.newly j h'
    · right
      rw [hch] at h'
      refine .step hu hc (h'.mono ?_)
      intro x hx
      cases hxs : h.sampled x with
      | false => rfl
      | true => rw [f.grow x hxs] at hx; cases hx

theorem samplerDraw_fr (w : World F G) (n : Nat) :
    ∀ (k i : Nat) (h : Heap F G), Fr i h (endState (samplerDraw w k i n h)) := by
  intro k
  induction k with
  | zero => intro i h; exact Fr.refl i h
  | succ k ih =>
    intro i h
    rw [samplerDraw, bind_apply, get_apply]
    simp only
    cases hs : (h.samplers i).isSampled with
    | true => simp only [if_true]; exact Fr.refl i h
    | false =>
      simp only [Bool.false_eq_true, if_false]
      apply bind_inv (P := fun t => Fr i h t)
      · exact (Fr.refl i h).of_eq (giveSelector_samplers i h)
      intro _ h1 _ f1
      apply bind_inv (P := fun t => Fr i h t)
      · apply forEach_inv (P := fun t => Fr i h t) f1
        intro p hp t ft
        have hc : p.2 ∈ h.children i := List.mem_map.2 ⟨p, hp, rfl⟩
        apply bind_inv (P := fun t => Fr i h t)
        · exact prepSecondary_fr ft hc
        · intro _ t2 _ ft2
          exact ft2.child (ih p.2 t2) hc hs
      intro _ h2 _ f2
      have o := finishDraw_only w i n h2
      refine ⟨?_, ?_, ?_, ?_⟩
      · intro j hj
        have : j ≠ i := by rintro rfl; exact hj (.here _)
        rw [o.1 j this]; exact f2.off j hj
      · intro j
        by_cases hj : j = i
        · subst hj; exact o.2.1.trans (f2.static j)
        · rw [o.1 j hj]; exact f2.static j
      · intro j hj
        have := f2.grow j hj
        by_cases hj : j = i
        · subst hj; exact o.2.2 this
        · simp only [Heap.sampled] at this ⊢; rw [o.1 j hj]; exact this
      · intro j hj
        by_cases hji : j = i
        · subst hji; exact .inr (.here hs)
        · simp only [Heap.sampled] at hj
          rw [o.1 j hji] at hj
          exact f2.newly j hj

/-- A successful draw leaves the sampler marked as sampled. -/
theorem samplerDraw_marks (w : World F G) (n k i : Nat) (h h' : Heap F G)
    (hk : samplerDraw w k i n h = .ok () h') : h'.sampled i = true := by
  cases k with
  | zero => simp [samplerDraw] at hk
  | succ k =>
    rw [samplerDraw, bind_apply, get_apply] at hk
    simp only at hk
    cases hs : (h.samplers i).isSampled with
    | true => simp only [hs, if_true, pure_apply] at hk; cases hk; exact hs
    | false =>
      simp only [hs, Bool.false_eq_true, if_false] at hk
      rw [bind_ok_iff] at hk
      obtain ⟨_, h1, _, hk⟩ := hk
      rw [bind_ok_iff] at hk
      obtain ⟨_, h2, _, e3⟩ := hk
      obtain ⟨-, -, -, t, o, p, pr, -, -, -, f4, -⟩ := finishDraw_ok e3
      simp [Heap.sampled, f4]

/-- Drawing into a cycle never returns. -/
theorem samplerDraw_cycle (w : World F G) (n : Nat) :
    ∀ (k i : Nat) (h h' : Heap F G), IntoCycle h.children h.sampled i →
      samplerDraw w k i n h ≠ .ok () h' := by
  intro k
  induction k with
  | zero => intro i h h' _ hk; simp [samplerDraw] at hk
  | succ k ih =>
    intro i h h' hb hk
    have hui : (h.samplers i).isSampled = false := by
      obtain ⟨j, c, hr, -⟩ := hb; exact hr.left
    rw [samplerDraw, bind_apply, get_apply] at hk
    simp only [hui, Bool.false_eq_true, if_false] at hk
    rw [bind_ok_iff] at hk
    obtain ⟨_, h1, e1, hk⟩ := hk
    rw [bind_ok_iff] at hk
    obtain ⟨_, h2, e2, e3⟩ := hk
    -- everything that leads into a cycle still does after the loop so far
    have hs1 : h1.samplers = h.samplers := by
      have := giveSelector_samplers i h
      rw [e1] at this; exact this
    have loop : ∀ (todo : Dict Nat) (ha : Heap F G), ha.children = h.children →
        (∀ x, IntoCycle h.children h.sampled x → IntoCycle h.children ha.sampled x) →
        (∃ p ∈ todo, IntoCycle h.children h.sampled p.2) →
        ∀ hb, forEach todo (fun p => do
            prepSecondary i p.2
            samplerDraw w k p.2 n) ha ≠ .ok () hb := by
      intro todo
      induction todo with
      | nil => intro ha _ _ hx; simp at hx
      | cons p todo iht =>
        intro ha hch hpres hex hbb hloop
        rw [forEach_cons, bind_ok_iff] at hloop
        obtain ⟨_, hc, ec, hrest⟩ := hloop
        rw [bind_ok_iff] at ec
        obtain ⟨_, hm, em, ed⟩ := ec
        obtain ⟨peff, -, -, -⟩ := prepSecondary_eff (w := w) (n := n) em
        have hchm : hm.children = h.children := peff.children_eq.trans hch
        have hsm : hm.sampled = ha.sampled := by
          funext j
          have := peff.marks j
          simp only [List.map_nil, List.not_mem_nil, or_false] at this
          exact Bool.eq_iff_iff.2 this
        -- the child cannot lead into a cycle
        have hnp : ¬ IntoCycle h.children ha.sampled p.2 := by
          intro hbad
          exact ih p.2 hm hc (by rw [hchm, hsm]; exact hbad) ed
        have fr := samplerDraw_fr w n k p.2 hm
        rw [ed] at fr
        simp only [endState] at fr
        have hnew : ∀ x, hc.sampled x = true → ha.sampled x = false →
            ReachU h.children ha.sampled p.2 x := by
          intro x hx hx0
          rcases fr.newly x hx with h' | h'
          · rw [hsm, hx0] at h'; cases h'
          · rw [hchm, hsm] at h'; exact h'
        -- preserved
        have hpres' : ∀ x, IntoCycle h.children h.sampled x →
            IntoCycle h.children hc.sampled x := by
          intro x hx
          obtain ⟨j, c, r1, r2, r3⟩ := hpres x hx
          refine ⟨j, c, ?_, r2, ?_⟩
          · rcases r1.survive_or (smp' := hc.sampled) with h' | ⟨y, hy, hy0, hyj⟩
            · exact h'
            · exact absurd ⟨j, c, (hnew y hy hy0).trans hyj, r2, r3⟩ hnp
          · rcases r3.survive_or (smp' := hc.sampled) with h' | ⟨y, hy, hy0, hyj⟩
            · exact h'
            · exact absurd ⟨j, c, (hnew y hy hy0).trans hyj, r2, r3⟩ hnp
        obtain ⟨q, hq, hqb⟩ := hex
        rcases List.mem_cons.1 hq with rfl | hq
        · exact hnp (hpres q.2 hqb)
        · exact iht hc (fr.children.trans hchm) hpres' ⟨q, hq, hqb⟩ hbb hrest
    have hsmp1 : h1.sampled = h.sampled := by funext j; simp only [Heap.sampled, hs1]
    have hch1 : h1.children = h.children := by funext j; simp only [Heap.children, hs1]
    refine loop (h.samplers i).secondaries h1 hch1 (by rw [hsmp1]; exact fun _ h => h) ?_ h2 e2
    obtain ⟨j, c, hr, hcj, hcr⟩ := hb
    -- the path from `i` starts with a child of `i`
    cases hr with
    | here =>
      obtain ⟨p, hp, rfl⟩ := List.mem_map.1 hcj
      exact ⟨p, hp, i, p.2, hcr, hcj, hcr⟩
    | step _ hci hrest =>
      obtain ⟨p, hp, rfl⟩ := List.mem_map.1 hci
      exact ⟨p, hp, j, c, hrest, hcj, hcr⟩

/-- Dependencies of sampled samplers stay sampled, even if a draw raises. -/
theorem samplerDraw_downClosed (w : World F G) (n : Nat) :
    ∀ (k i : Nat) (h : Heap F G), DownClosed h.children h.sampled →
      DownClosed (endState (samplerDraw w k i n h)).children
        (endState (samplerDraw w k i n h)).sampled := by
  intro k
  induction k with
  | zero => intro i h hd; exact hd
  | succ k ih =>
    intro i h hd
    rw [samplerDraw, bind_apply, get_apply]
    simp only
    cases hs : (h.samplers i).isSampled with
    | true => simp only [if_true]; exact hd
    | false =>
      simp only [Bool.false_eq_true, if_false]
      let DC := fun t : Heap F G => Fr i h t ∧ DownClosed t.children t.sampled
      suffices DC (endState ((giveSelector i >>= fun _ =>
          forEach (h.samplers i).secondaries (fun p => do
            prepSecondary i p.2
            samplerDraw w k p.2 n) >>= fun _ => finishDraw w i n) h)) from this.2
      have ofeq : ∀ a b : Heap F G, DC a → b.samplers = a.samplers → DC b := by
        intro a b ha e
        refine ⟨ha.1.of_eq e, ?_⟩
        have h1 : b.sampled = a.sampled := by funext j; simp only [Heap.sampled, e]
        have h2 : b.children = a.children := by funext j; simp only [Heap.children, e]
        rw [h1, h2]; exact ha.2
      have step : ∀ p ∈ (h.samplers i).secondaries, ∀ t, DC t →
          DC (endState ((prepSecondary i p.2 >>= fun _ => samplerDraw w k p.2 n) t)) := by
        intro p hp t ht
        have hc : p.2 ∈ h.children i := List.mem_map.2 ⟨p, hp, rfl⟩
        apply bind_inv (P := DC)
        · refine ⟨prepSecondary_fr ht.1 hc, ?_⟩
          have hse : (endState (prepSecondary i p.2 t)).sampled = t.sampled ∧
              (endState (prepSecondary i p.2 t)).children = t.children := by
            unfold prepSecondary
            split
            · split
              · exact ⟨rfl, rfl⟩
              · constructor
                · funext j
                  simp only [setSpatialValues, modify_apply, endState, Heap.sampled,
                    modSampler_samplers]
                  split <;> rfl
                · funext j
                  simp only [setSpatialValues, modify_apply, endState, Heap.children,
                    modSampler_samplers]
                  split <;> rfl
            · exact ⟨rfl, rfl⟩
          rw [hse.1, hse.2]; exact ht.2
        · intro _ t2 _ ht2
          exact ⟨ht2.1.child (samplerDraw_fr w n k p.2 t2) hc hs, ih p.2 t2 ht2.2⟩
      apply bind_inv (P := DC)
      · exact ofeq h _ ⟨Fr.refl i h, hd⟩ (giveSelector_samplers i h)
      intro _ h1 _ f1
      apply bind_inv (P := DC)
      · exact forEach_inv f1 step
      intro _ h2 e2 f2
      -- after a successful loop all secondaries are sampled
      have hall : ∀ p ∈ (h.samplers i).secondaries, h2.sampled p.2 = true := by
        have gen : ∀ (todo : Dict Nat) (ha hb : Heap F G),
            (∀ p ∈ todo, p ∈ (h.samplers i).secondaries) →
            forEach todo (fun p => do
              prepSecondary i p.2
              samplerDraw w k p.2 n) ha = .ok () hb →
            (∀ x, ha.sampled x = true → hb.sampled x = true) ∧
            ∀ p ∈ todo, hb.sampled p.2 = true := by
          intro todo
          induction todo with
          | nil => intro ha hb _ e; simp at e; subst e; simp
          | cons p todo iht =>
            intro ha hb hsub e
            rw [forEach_cons, bind_ok_iff] at e
            obtain ⟨_, hc, ec, hrest⟩ := e
            rw [bind_ok_iff] at ec
            obtain ⟨_, hm, em, ed⟩ := ec
            obtain ⟨peff, -, -, -⟩ := prepSecondary_eff (w := w) (n := n) em
            have fr := samplerDraw_fr w n k p.2 hm
            rw [ed] at fr
            obtain ⟨g1, g2⟩ := iht hc hb (fun q hq => hsub q (by simp [hq])) hrest
            refine ⟨fun x hx => g1 x (fr.grow x (peff.sampled_of hx)), ?_⟩
            intro q hq
            rcases List.mem_cons.1 hq with rfl | hq
            · exact g1 _ (samplerDraw_marks w n k q.2 hm hc ed)
            · exact g2 q hq
        exact (gen _ h1 h2 (fun _ h => h) e2).2
      have o := finishDraw_only w i n h2
      have hch2 := f2.1.children
      refine ⟨?_, ?_⟩
      · refine ⟨?_, ?_, ?_, ?_⟩
        · intro j hj
          have : j ≠ i := by rintro rfl; exact hj (.here _)
          rw [o.1 j this]; exact f2.1.off j hj
        · intro j
          by_cases hj : j = i
          · subst hj; exact o.2.1.trans (f2.1.static j)
          · rw [o.1 j hj]; exact f2.1.static j
        · intro j hj
          have := f2.1.grow j hj
          by_cases hj : j = i
          · subst hj; exact o.2.2 this
          · simp only [Heap.sampled] at this ⊢; rw [o.1 j hj]; exact this
        · intro j hj
          by_cases hji : j = i
          · subst hji; exact .inr (.here hs)
          · simp only [Heap.sampled] at hj
            rw [o.1 j hji] at hj
            exact f2.1.newly j hj
      · have hchE : (endState (finishDraw w i n h2)).children = h2.children := by
          funext j
          by_cases hj : j = i
          · subst hj; simp only [Heap.children, static_secondaries o.2.1]
          · simp only [Heap.children, o.1 j hj]
        have hgrow : ∀ j, h2.sampled j = true → (endState (finishDraw w i n h2)).sampled j = true := by
          intro j hj
          by_cases hji : j = i
          · subst hji; exact o.2.2 hj
          · simp only [Heap.sampled] at hj ⊢; rw [o.1 j hji]; exact hj
        rw [hchE]
        intro j hj c hc
        by_cases hji : j = i
        · subst hji
          rw [hch2] at hc
          obtain ⟨p, hp, rfl⟩ := List.mem_map.1 hc
          exact hgrow _ (hall p hp)
        · have : h2.sampled j = true := by
            simp only [Heap.sampled] at hj ⊢; rwa [o.1 j hji] at hj
          exact hgrow c (f2.2 j this c hc)

end

/-! ### Reset -/

/-- Effect of (part of) a reset of `i`. -/
structure ResetEff (i : Nat) (h h' : Heap F G) : Prop where
  static : ∀ j, (h'.samplers j).static = (h.samplers j).static
  off : ∀ j, ¬ Reach h.children i j → h'.samplers j = h.samplers j
  shape : ∀ j, h'.samplers j = h.samplers j ∨ h'.samplers j =
    { h.samplers j with isSampled := false, obsVals := none, trueVals := none }
  unsampled : ∀ j, h.sampled j = false → h'.samplers j = h.samplers j
  rng : h'.rng = h.rng
  trace : h'.trace = h.trace
  selflags : ∀ q, h'.selectors q = h.selectors q ∨ h'.selectors q = (h.selectors q).reset

theorem ResetEff.children {i : Nat} {h h' : Heap F G} (f : ResetEff i h h') :
    h'.children = h.children := by
  funext j; simp only [Heap.children, static_secondaries (f.static j)]

theorem ResetEff.refl (i : Nat) (h : Heap F G) : ResetEff i h h :=
  ⟨fun _ => rfl, fun _ _ => rfl, fun _ => .inl rfl, fun _ _ => rfl, rfl, rfl, fun _ => .inl rfl⟩

theorem Selector.reset_reset (c : Selector F G) : c.reset.reset = c.reset := by
  unfold Selector.reset; cases h : c.isSampled <;> simp [h]

theorem ResetEff.trans {i c : Nat} {h h1 h2 : Heap F G} (f : ResetEff i h h1)
    (g : ResetEff c h1 h2) (hc : Reach h.children i c) : ResetEff i h h2 := by
  refine ⟨fun j => (g.static j).trans (f.static j), ?_, ?_, ?_, g.rng.trans f.rng,
    g.trace.trans f.trace, ?_⟩
  · intro j hj
    rw [g.off j, f.off j hj]
    rw [f.children]; intro hr; exact hj (hc.trans hr)
  · intro j
    rcases f.shape j with h1' | h1' <;> rcases g.shape j with h2' | h2' <;>
      simp only [h1'] at h2' <;> simp only [h2'] <;> simp
  · intro j hj
    have : h1.sampled j = false := by simp only [Heap.sampled, f.unsampled j hj]; exact hj
    rw [g.unsampled j this, f.unsampled j hj]
  · intro q
    rcases f.selflags q with h1' | h1' <;> rcases g.selflags q with h2' | h2' <;>
      rw [h1'] at h2' <;> rw [h2'] <;> simp [Selector.reset_reset]

theorem resetOne_eff (i : Nat) (h : Heap F G) : ResetEff i h (resetOne i h) := by
  unfold resetOne
  split
  · rename_i hs
    have key : ∀ k, ((h.modSampler i fun s =>
        { s with isSampled := false, obsVals := none, trueVals := none }).modSelector
        (h.samplers i).selector Selector.reset).samplers k =
        if k = i then { h.samplers k with isSampled := false, obsVals := none, trueVals := none }
        else h.samplers k := fun _ => rfl
    refine ⟨?_, ?_, ?_, ?_, rfl, rfl, ?_⟩
    · intro j; rw [key]; split <;> rfl
    · intro j hj
      have : j ≠ i := by rintro rfl; exact hj (.here _)
      rw [key, if_neg this]
    · intro j; rw [key]; split
      · exact .inr rfl
      · exact .inl rfl
    · intro j hj
      have : j ≠ i := by
        rintro rfl
        rw [Heap.sampled, hs] at hj; cases hj
      rw [key, if_neg this]
    · intro q
      by_cases hq : q = (h.samplers i).selector
      · subst hq; rw [modSelector_same]; exact .inr rfl
      · rw [modSelector_ne _ _ hq]; exact .inl rfl
  · exact ResetEff.refl i h

theorem samplerReset_eff : ∀ (k i : Nat) (h : Heap F G),
    ResetEff i h (endState (samplerReset k i h)) := by
  intro k
  induction k with
  | zero => intro i h; exact ResetEff.refl i h
  | succ k ih =>
    intro i h
    rw [samplerReset, bind_apply, modify_apply]
    simp only
    rw [bind_apply, get_apply]
    simp only
    apply forEach_inv (P := fun t => ResetEff i h t) (resetOne_eff i h)
    intro p hp t ft
    have : ((resetOne i h).samplers i).secondaries = (h.samplers i).secondaries :=
      static_secondaries ((resetOne_eff i h).static i)
    rw [this] at hp
    exact ft.trans (ih p.2 t) (.step (List.mem_map.2 ⟨p, hp, rfl⟩) (.here _))

theorem ResetEff.stays {i : Nat} {h h' : Heap F G} (f : ResetEff i h h') {j : Nat}
    (hj : h.sampled j = false) : h'.sampled j = false := by
  simp only [Heap.sampled, f.unsampled j hj]; exact hj

/-- After a reset that returns, nothing reachable is sampled. -/
theorem samplerReset_clears : ∀ (k i : Nat) (h h' : Heap F G),
    samplerReset k i h = .ok () h' → ∀ j, Reach h.children i j → h'.sampled j = false := by
  intro k
  induction k with
  | zero => intro i h h' hk; simp [samplerReset] at hk
  | succ k ih =>
    intro i h h' hk j hj
    rw [samplerReset, bind_apply, modify_apply] at hk
    simp only at hk
    rw [bind_apply, get_apply] at hk
    simp only at hk
    have heff := resetOne_eff i h
    have hsec : ((resetOne i h).samplers i).secondaries = (h.samplers i).secondaries :=
      static_secondaries (heff.static i)
    rw [hsec] at hk
    have loop : ∀ (todo : Dict Nat) (ha hb : Heap F G), ha.children = h.children →
        forEach todo (fun p => samplerReset k p.2) ha = .ok () hb →
        (∀ x, ha.sampled x = false → hb.sampled x = false) ∧
        ∀ p ∈ todo, ∀ x, Reach h.children p.2 x → hb.sampled x = false := by
      intro todo
      induction todo with
      | nil => intro ha hb _ e; simp at e; subst e; simp
      | cons p todo iht =>
        intro ha hb hch e
        rw [forEach_cons, bind_ok_iff] at e
        obtain ⟨_, hc, ec, hrest⟩ := e
        have fr := samplerReset_eff k p.2 ha
        rw [ec] at fr
        obtain ⟨g1, g2⟩ := iht hc hb (fr.children.trans hch) hrest
        refine ⟨fun x hx => g1 x (fr.stays hx), ?_⟩
        intro q hq x hx
        rcases List.mem_cons.1 hq with rfl | hq
        · exact g1 x (ih q.2 ha hc ec x (by rw [hch]; exact hx))
        · exact g2 q hq x hx
    obtain ⟨g1, g2⟩ := loop _ _ h' heff.children hk
    cases hj with
    | here =>
      apply g1
      unfold resetOne
      cases hs : (h.samplers i).isSampled with
      | true => simp [Heap.sampled]
      | false => simp [Heap.sampled, hs]
    | step hc hr =>
      obtain ⟨p, hp, rfl⟩ := List.mem_map.1 hc
      exact g2 p hp j hr

theorem Spec.Ranked.child {ch : Nat → List Nat} {r : Nat → Nat} {i c : Nat}
    (h : Ranked ch r i) (hc : c ∈ ch i) : Ranked ch r c := fun j hj => h j (.step hc hj)

theorem Spec.Ranked.acyclic {ch : Nat → List Nat} {r : Nat → Nat} {i : Nat}
    (h : Ranked ch r i) : Acyclic ch i := by
  have le : ∀ a b, Reach ch a b → Ranked ch r a → r b ≤ r a := by
    intro a b hab
    induction hab with
    | here => intro _; exact Nat.le_refl _
    | step hc hr ih =>
      intro hra
      exact Nat.le_trans (ih (hra.child hc)) (Nat.le_of_lt (hra _ (.here _) _ hc))
  intro j hj c hc hcj
  have h1 := h j hj c hc
  have h2 := le c j hcj (fun x hx => h x (hj.trans (.step hc hx)))
  omega

theorem samplerReset_returns (r : Nat → Nat) : ∀ (k i : Nat) (h : Heap F G),
    Ranked h.children r i → r i < k → ∃ h', samplerReset k i h = .ok () h' := by
  intro k
  induction k with
  | zero => intro i h _ hk; omega
  | succ k ih =>
    intro i h hr hk
    rw [samplerReset, bind_apply, modify_apply]
    simp only
    rw [bind_apply, get_apply]
    simp only
    have heff := resetOne_eff i h
    have hsec : ((resetOne i h).samplers i).secondaries = (h.samplers i).secondaries :=
      static_secondaries (heff.static i)
    rw [hsec]
    have loop : ∀ (todo : Dict Nat) (ha : Heap F G), ha.children = h.children →
        (∀ p ∈ todo, p ∈ (h.samplers i).secondaries) →
        ∃ hb, forEach todo (fun p => samplerReset k p.2) ha = .ok () hb := by
      intro todo
      induction todo with
      | nil => intro ha _ _; exact ⟨ha, rfl⟩
      | cons p todo iht =>
        intro ha hch hsub
        have hc : p.2 ∈ h.children i := List.mem_map.2 ⟨p, hsub p (by simp), rfl⟩
        obtain ⟨hc', ec⟩ := ih p.2 ha (by rw [hch]; exact hr.child hc)
          (by have := hr i (.here _) p.2 hc; omega)
        have fr := samplerReset_eff k p.2 ha
        rw [ec] at fr
        obtain ⟨hb, eb⟩ := iht hc' (fr.children.trans hch) (fun q hq => hsub q (by simp [hq]))
        exact ⟨hb, by rw [forEach_cons, bind_of_ok ec]; exact eb⟩
    exact loop _ _ heff.children (fun _ h => h)

end Popsynth
