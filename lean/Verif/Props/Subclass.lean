import Verif.Spec.Subclass
import Verif.Lemmas.Py

/-!
# C81: subclass checks
-/

set_option autoImplicit false

namespace Popsynth
open Spec

variable {W : ClassTable} {s : AbcSets}

theorem abcOwner_none {a : AbcAttr} : ∀ l : List Nat, (∀ b ∈ l, s b a = none) → abcOwner s a l = none
  | [], _ => rfl
  | c :: rest, h => by
    rw [abcOwner, h c (by simp)]
    exact abcOwner_none rest fun b hb => h b (by simp [hb])

/-- **C81, violated.**  `ParameterMeta` never creates the sets its check works with: asking whether
a class is a subclass of any class made by it raises `AttributeError`, whether it is one or not,
and also for the class itself. -/
theorem C81_violated {cls : Nat} (hp : W.parametric cls = true) (hs : NoSets W s cls)
    (hh : ∀ c, W.hook cls c = .notImplemented) (n c : Nat) :
    isSubclass W (n + 1) (some c) cls s = .error .attribute s := by
  have hn : ∀ a, abcOwner s a (W.mro cls) = none := fun a => abcOwner_none _ fun b hb => hs b hb a
  simp only [isSubclass, hp, if_true, hh]
  split
  · rw [bind_of_error]; simp only [abcAdd, hn]
  · rw [bind_of_error]; simp only [abcGet, hn]

/-- Without a hook of its own, a class answers a `TypeError` to what is not a class. -/
theorem C81_nonclass (n cls : Nat) : isSubclass W n none cls s = .error .type s := by
  cases n <;> rfl

/-! ### With the sets -/

theorem own_owner {registry : Nat → List Nat} (h : OwnSets W registry s) {cls : Nat}
    (hp : W.parametric cls = true) (a : AbcAttr) : abcOwner s a (W.mro cls) = some cls := by
  obtain ⟨rest, hr⟩ := h.first cls hp
  have ho := h.own cls a hp
  rw [hr, abcOwner]
  cases hc : s cls a with
  | none => exact absurd hc ho
  | some l => rfl

theorem own_add {registry : Nat → List Nat} (h : OwnSets W registry s) {cls : Nat}
    (hp : W.parametric cls = true) {a : AbcAttr} (ha : a ≠ .registry) (c : Nat) :
    ∃ s', abcAdd W a cls c s = .ok () s' ∧ OwnSets W registry s' := by
  refine ⟨_, by simp only [abcAdd, own_owner h hp]; rfl, h.first, ?_, ?_⟩
  · intro cls' a' hp'
    split
    · simp
    · exact h.own cls' a' hp'
  · intro cls' hp'
    rw [if_neg fun hc => ha hc.2.symm]
    exact h.registry cls' hp'

theorem find_spec {registry : Nat → List Nat} {f : Nat → Py AbcSets Bool} {T : Nat → Prop}
    (l : List Nat) (hf : ∀ r ∈ l, ∀ s, OwnSets W registry s → ∃ b s', f r s = .ok b s' ∧
      OwnSets W registry s' ∧ (b = true ↔ T r)) :
    ∀ s, OwnSets W registry s → ∃ b s', findPy f l s = .ok b s' ∧ OwnSets W registry s' ∧
      (b = true ↔ ∃ r ∈ l, T r) := by
  induction l with
  | nil => exact fun s hs => ⟨false, s, rfl, hs, by simp⟩
  | cons r rest ih =>
    intro s hs
    obtain ⟨b, s1, h1, h2, h3⟩ := hf r (by simp) s hs
    cases b with
    | true =>
      exact ⟨true, s1, by rw [findPy, bind_of_ok h1]; rfl, h2, by simp [h3.1 rfl]⟩
    | false =>
      obtain ⟨b', s2, k1, k2, k3⟩ := ih (fun r' hr' => hf r' (by simp [hr'])) s1 h2
      refine ⟨b', s2, by rw [findPy, bind_of_ok h1]; exact k1, k2, ?_⟩
      have : ¬ T r := fun h => by simpa using h3.2 h
      simp [k3, this]

/-- **C81 (with the sets of `abc`), partial.**  If every class made by `ParameterMeta` had the three
sets, the check would return what it should, whatever the sets of answers contain, provided it gets
along with the stack: `rank` is how deep the subclasses and registered classes of a class nest. -/
theorem C81_subclass_partial {registry : Nat → List Nat} (hh : ∀ cls c, W.hook cls c = .notImplemented)
    {rank : Nat → Nat} (hrank : ∀ cls r, r ∈ registry cls ∨ r ∈ W.subclasses cls → rank r < rank cls)
    (hplain : ∀ cls c, W.parametric cls = false →
      (Sub W.mro registry W.subclasses c cls ↔ cls ∈ W.mro c)) (c : Nat) :
    ∀ n cls s, rank cls < n → OwnSets W registry s →
      ∃ b s', isSubclass W n (some c) cls s = .ok b s' ∧ OwnSets W registry s' ∧
        (b = true ↔ Sub W.mro registry W.subclasses c cls) := by
  intro n
  induction n with
  | zero => intro cls s h; omega
  | succ n ih =>
    intro cls s hr hs
    by_cases hp : W.parametric cls = true
    · simp only [isSubclass, hp, if_true, hh]
      by_cases hm : cls ∈ W.mro c
      · rw [if_pos hm]
        obtain ⟨s', h1, h2⟩ := own_add hs hp (a := .cache) (by decide) c
        exact ⟨true, s', by rw [bind_of_ok h1]; rfl, h2, by simp [Sub.base hm]⟩
      · rw [if_neg hm]
        have k0 : abcGet W .registry cls s = .ok (registry cls) s := by
          simp only [abcGet, own_owner hs hp, hs.registry cls hp, Option.getD_some]
        rw [bind_of_ok k0]
        obtain ⟨b1, s1, h1, h2, h3⟩ := find_spec (T := fun r => Sub W.mro registry W.subclasses c r)
          (f := fun r => isSubclass W n (some c) r) (registry cls)
          (fun r hr' s hs => ih r s (by have := hrank cls r (.inl hr'); omega) hs) s hs
        rw [bind_of_ok h1]
        cases b1 with
        | true =>
          obtain ⟨s', k1, k2⟩ := own_add h2 hp (a := .cache) (by decide) c
          obtain ⟨r, r1, r2⟩ := h3.1 rfl
          refine ⟨true, s', ?_, k2, by simp [Sub.registered r1 r2]⟩
          simp only [if_true]
          rw [bind_of_ok k1]; rfl
        | false =>
          obtain ⟨b2, s2, q1, q2, q3⟩ := find_spec (T := fun r => Sub W.mro registry W.subclasses c r)
            (f := fun r => isSubclass W n (some c) r) (W.subclasses cls)
            (fun r hr' s hs => ih r s (by have := hrank cls r (.inr hr'); omega) hs) s1 h2
          simp only [Bool.false_eq_true, if_false]
          rw [bind_of_ok q1]
          cases b2 with
          | true =>
            obtain ⟨s', k1, k2⟩ := own_add q2 hp (a := .cache) (by decide) c
            obtain ⟨r, r1, r2⟩ := q3.1 rfl
            refine ⟨true, s', ?_, k2, by simp [Sub.derived r1 r2]⟩
            simp only [if_true]
            rw [bind_of_ok k1]; rfl
          | false =>
            obtain ⟨s', k1, k2⟩ := own_add q2 hp (a := .negative) (by decide) c
            refine ⟨false, s', ?_, k2, ?_⟩
            · simp only [Bool.false_eq_true, if_false]
              rw [bind_of_ok k1]; rfl
            · simp only [Bool.false_eq_true, false_iff]
              intro h
              cases h with
              | base h => exact hm h
              | registered h1 h2 => exact absurd (h3.2 ⟨_, h1, h2⟩) (by simp)
              | derived h1 h2 => exact absurd (q3.2 ⟨_, h1, h2⟩) (by simp)
    · rw [Bool.not_eq_true] at hp
      refine ⟨decide (cls ∈ W.mro c), s, by simp [isSubclass, hp], hs, ?_⟩
      rw [decide_eq_true_eq, hplain cls c hp]

/-! ### What is recorded -/

/-- Nothing is forgotten, only `c` is added, and not to the registered classes. -/
structure Recorded (W : ClassTable) (c : Nat) (s s' : AbcSets) : Prop where
  kept : ∀ k a x, HasEntry s k a x → HasEntry s' k a x
  only : ∀ k a x, HasEntry s' k a x → HasEntry s k a x ∨ (x = c ∧ a ≠ .registry)
  own : ∀ r, OwnSets W r s → OwnSets W r s'

theorem Recorded.refl (c : Nat) (s : AbcSets) : Recorded W c s s :=
  ⟨fun _ _ _ h => h, fun _ _ _ h => .inl h, fun _ h => h⟩

theorem Recorded.trans {c : Nat} {s s' s'' : AbcSets} (h : Recorded W c s s')
    (h' : Recorded W c s' s'') : Recorded W c s s'' :=
  ⟨fun k a x hx => h'.kept k a x (h.kept k a x hx),
    fun k a x hx => (h'.only k a x hx).elim (h.only k a x) .inr,
    fun r hr => h'.own r (h.own r hr)⟩

theorem recorded_add {a : AbcAttr} (ha : a ≠ .registry) {cls c : Nat} {s s' : AbcSets}
    (h : abcAdd W a cls c s = .ok () s') :
    Recorded W c s s' ∧ ∀ r, OwnSets W r s → W.parametric cls = true → HasEntry s' cls a c := by
  unfold abcAdd at h
  cases ho : abcOwner s a (W.mro cls) with
  | none => rw [ho] at h; cases h
  | some o =>
    rw [ho] at h
    obtain ⟨L, hL, rfl⟩ : ∃ L, (∀ x, x ∈ L ↔ x ∈ (s o a).getD [] ∨ x = c) ∧
        s' = fun c' a' => if c' = o ∧ a' = a then some L else s c' a' := by
      cases h
      refine ⟨_, fun x => ?_, rfl⟩
      split
      · rename_i hm
        exact ⟨.inl, fun h => h.elim id fun e => e ▸ hm⟩
      · simp
    refine ⟨⟨?_, ?_, fun r hr => ⟨hr.first, ?_, ?_⟩⟩, ?_⟩
    · rintro k b x ⟨l, hl, hx⟩
      by_cases e : k = o ∧ b = a
      · refine ⟨L, if_pos e, (hL x).2 (.inl ?_)⟩
        obtain ⟨rfl, rfl⟩ := e
        rw [hl]; exact hx
      · exact ⟨l, (if_neg e).trans hl, hx⟩
    · rintro k b x ⟨l, hl, hx⟩
      by_cases e : k = o ∧ b = a
      · simp only [if_pos e, Option.some.injEq] at hl
        subst hl
        obtain ⟨rfl, rfl⟩ := e
        rcases (hL x).1 hx with h | h
        · left
          cases hs : s k b with
          | none => rw [hs] at h; cases h
          | some l => rw [hs] at h; exact ⟨l, hs, h⟩
        · exact .inr ⟨h, ha⟩
      · simp only [if_neg e] at hl
        exact .inl ⟨l, hl, hx⟩
    · intro k b hp
      by_cases e : k = o ∧ b = a
      · simp [if_pos e]
      · simp only [if_neg e]
        exact hr.own k b hp
    · intro k hp
      rw [if_neg fun e => ha e.2.symm]
      exact hr.registry k hp
    · intro r hr hp
      rw [own_owner hr hp a] at ho
      cases ho
      exact ⟨L, if_pos ⟨rfl, rfl⟩, (hL c).2 (.inr rfl)⟩

theorem recorded_find {c : Nat} {f : Nat → Py AbcSets Bool} (l : List Nat)
    (hf : ∀ r s b s', f r s = .ok b s' → Recorded W c s s') : ∀ s b s',
    findPy f l s = .ok b s' → Recorded W c s s' := by
  induction l with
  | nil => intro s b s' h; cases h; exact .refl c s
  | cons r rest ih =>
    intro s b s' h
    rw [findPy, bind_apply] at h
    cases h1 : f r s with
    | error e s1 => rw [h1] at h; cases h
    | ok b1 s1 =>
      rw [h1] at h
      simp only at h
      cases b1 with
      | true => cases h; exact hf r s true _ h1
      | false => exact (hf r s false s1 h1).trans (ih s1 b s' h)

/-- **C81 (recorded).**  Whenever a check returns, with whatever hooks: no set has lost a class, no
class but the one asked about was added, none to the registered ones; and if the class has its own
sets, the answer is recorded in the right one of them. -/
theorem C81_recorded (c : Nat) : ∀ n cls s b s', isSubclass W n (some c) cls s = .ok b s' →
    (∀ k a x, HasEntry s k a x → HasEntry s' k a x) ∧
    (∀ k a x, HasEntry s' k a x → HasEntry s k a x ∨ (x = c ∧ a ≠ .registry)) ∧
    (∀ r, OwnSets W r s → OwnSets W r s' ∧
      (W.parametric cls = true → HasEntry s' cls (if b then .cache else .negative) c)) := by
  have main : ∀ n cls s b s', isSubclass W n (some c) cls s = .ok b s' →
      Recorded W c s s' ∧ ∀ r, OwnSets W r s → W.parametric cls = true →
        HasEntry s' cls (if b then .cache else .negative) c := by
    intro n
    induction n with
    | zero =>
      intro cls s b s' h
      rw [isSubclass] at h
      split at h
      · cases h
      · rename_i hp
        cases h
        exact ⟨.refl c s, fun _ _ h => absurd h hp⟩
    | succ n ih =>
      have final : ∀ (a : AbcAttr) (b : Bool), a = (if b then .cache else .negative) →
          ∀ cls s b' s', (do abcAdd W a cls c; pure b : Py AbcSets Bool) s = .ok b' s' →
          Recorded W c s s' ∧ ∀ r, OwnSets W r s → W.parametric cls = true →
            HasEntry s' cls (if b' then .cache else .negative) c := by
        intro a b ha cls s b' s' h
        rw [bind_apply] at h
        cases h1 : abcAdd W a cls c s with
        | error e s1 => rw [h1] at h; cases h
        | ok u s1 =>
          rw [h1] at h
          cases h
          subst ha
          exact recorded_add (by cases b <;> decide) h1
      intro cls s b s' h
      rw [isSubclass] at h
      by_cases hp : W.parametric cls = true
      rotate_left
      · rw [if_neg hp] at h
        cases h
        exact ⟨.refl c s, fun _ _ h => absurd h hp⟩
      rw [if_pos hp] at h
      cases hh : W.hook cls c with
      | bool b0 =>
        simp only [hh] at h
        exact final _ b0 rfl _ _ _ _ h
      | other => simp only [hh] at h; cases h
      | notImplemented =>
      simp only [hh] at h
      by_cases hm : cls ∈ W.mro c
      · rw [if_pos hm] at h
        exact final _ true rfl _ _ _ _ h
      rw [if_neg hm, bind_apply] at h
      have hg : ∀ r sx, abcGet W .registry cls s = .ok r sx → sx = s := by
        intro r sx hg
        unfold abcGet at hg
        split at hg
        · cases hg
        · cases hg; rfl
      cases h1 : abcGet W .registry cls s with
      | error e s1 => rw [h1] at h; cases h
      | ok reg s1 =>
        rw [h1] at h
        obtain rfl := hg _ _ h1
        simp only at h
        rw [bind_apply] at h
        cases h2 : findPy (fun r => isSubclass W n (some c) r) reg s1 with
        | error e s2 => rw [h2] at h; cases h
        | ok b1 s2 =>
          rw [h2] at h
          simp only at h
          have r1 := recorded_find (c := c) reg (fun r s b s' h => (ih r s b s' h).1) _ _ _ h2
          split at h
          · obtain ⟨r2, r3⟩ := final _ true rfl _ _ _ _ h
            exact ⟨r1.trans r2, fun r hr => r3 r (r1.own r hr)⟩
          · rw [bind_apply] at h
            cases h3 : findPy (fun r => isSubclass W n (some c) r) (W.subclasses cls) s2 with
            | error e s3 => rw [h3] at h; cases h
            | ok b2 s3 =>
              rw [h3] at h
              simp only at h
              have r2 := r1.trans (recorded_find (c := c) _ (fun r s b s' h => (ih r s b s' h).1)
                _ _ _ h3)
              split at h
              · obtain ⟨q1, q2⟩ := final _ true rfl _ _ _ _ h
                exact ⟨r2.trans q1, fun r hr => q2 r (r2.own r hr)⟩
              · obtain ⟨q1, q2⟩ := final _ false rfl _ _ _ _ h
                exact ⟨r2.trans q1, fun r hr => q2 r (r2.own r hr)⟩
  intro n cls s b s' h
  obtain ⟨h1, h2⟩ := main n cls s b s' h
  exact ⟨h1.kept, h1.only, fun r hr => ⟨h1.own r hr, h2 r hr⟩⟩

/-- **C81 (hooks).**  With its own sets, a class answers what its hook answers; if that is neither
`NotImplemented` nor a boolean, `AssertionError` is raised and nothing is recorded. -/
theorem C81_hook {registry : Nat → List Nat} (hs : OwnSets W registry s) {cls : Nat}
    (hp : W.parametric cls = true) (n c : Nat) :
    (∀ b, W.hook cls c = .bool b → ∃ s', isSubclass W (n + 1) (some c) cls s = .ok b s') ∧
    (W.hook cls c = .other → isSubclass W (n + 1) (some c) cls s = .error .assertion s) := by
  constructor
  · intro b hb
    obtain ⟨s', h1, _⟩ := own_add hs hp (a := if b then .cache else .negative)
      (by cases b <;> decide) c
    refine ⟨s', ?_⟩
    simp only [isSubclass, hp, if_true, hb]
    rw [bind_of_ok h1]; rfl
  · intro hb
    simp only [isSubclass, hp, if_true, hb]
    rfl

/-- **C81 (meaning).**  With nothing registered, and classes that know their bases, being a subclass
is having the class among the bases. -/
theorem C81_meaning {mro registry derived : Nat → List Nat} (hr : ∀ cls, registry cls = [])
    (hd : ∀ cls r, r ∈ derived cls → cls ∈ mro r) (ht : ∀ a b c, a ∈ mro b → b ∈ mro c → a ∈ mro c)
    (c cls : Nat) : Sub mro registry derived c cls ↔ cls ∈ mro c := by
  refine ⟨fun h => ?_, .base⟩
  induction h with
  | base h => exact h
  | registered h1 _ _ => rw [hr] at h1; cases h1
  | derived h1 _ ih => exact ht _ _ _ (hd _ _ h1) ih

/-- **C81, violated for inherited sets.**  If a class has no set of registered classes of its own but a
base has one, the set of the base is used: what was registered with the base counts as a subclass of the
class too, and the answer is recorded in the set that the base has. -/
theorem C81_violated_inherited {cls base r c : Nat} {l : List Nat} {n : Nat} (hp : W.parametric cls = true)
    (hh : W.hook cls c = .notImplemented) (hc : cls ∉ W.mro c) (ho : ∀ a, abcOwner s a (W.mro cls) = some base)
    (hl : s base .registry = some (r :: l)) (hr : W.parametric r = false) (hs : r ∈ W.mro c) :
    ∃ s', isSubclass W (n + 2) (some c) cls s = .ok true s' ∧ HasEntry s' base .cache c := by
  have hg : abcGet W .registry cls s = .ok (r :: l) s := by
    simp only [abcGet, ho, hl, Option.getD_some]
  have hi : isSubclass W (n + 1) (some c) r s = .ok true s := by
    simp only [isSubclass, hr, Bool.false_eq_true, if_false, hs, decide_true]; rfl
  have hf : findPy (fun r => isSubclass W (n + 1) (some c) r) (r :: l) s = .ok true s := by
    rw [findPy, bind_of_ok hi]; rfl
  obtain ⟨s', ha, he⟩ : ∃ s', abcAdd W .cache cls c s = .ok () s' ∧ HasEntry s' base .cache c := by
    refine ⟨_, by simp only [abcAdd, ho]; rfl, ?_⟩
    simp only [HasEntry, and_self, if_true]
    refine ⟨_, rfl, ?_⟩
    split
    · assumption
    · simp
  refine ⟨s', ?_, he⟩
  rw [isSubclass]
  simp only [hp, if_true, hh, hc, if_false]
  rw [bind_of_ok hg, bind_of_ok hf]
  simp only [if_true]
  rw [bind_of_ok ha]
  rfl

namespace SubclassExample

/-- `object`, `AuxiliarySampler`, `NormalAuxSampler` and `Distribution`. -/
def table : ClassTable where
  parametric c := c ≠ 0
  mro c := if c = 0 then [0] else if c = 2 then [2, 1, 0] else [c, 0]
  subclasses c := if c = 0 then [1, 3] else if c = 1 then [2] else []
  hook _ _ := .notImplemented

/-- As the package leaves it. -/
def bare : AbcSets := fun _ _ => none

/-- With empty sets for every class. -/
def sets : AbcSets := fun _ _ => some []

/-- `issubclass(NormalAuxSampler, AuxiliarySampler)`, and for an unrelated class. -/
example : isSubclass table 100 (some 2) 1 bare = .error .attribute bare ∧
    isSubclass table 100 (some 3) 1 bare = .error .attribute bare :=
  ⟨C81_violated rfl (fun _ _ _ => rfl) (fun _ => rfl) 99 2, C81_violated rfl (fun _ _ _ => rfl) (fun _ => rfl) 99 3⟩

/-- With the sets the answers would be right. -/
example : outcome (isSubclass table 100 (some 2) 1 sets) = .ok true ∧
    outcome (isSubclass table 100 (some 3) 1 sets) = .ok false ∧
    outcome (isSubclass table 100 (some 1) 0 bare) = .ok true := by decide

/-- The answers are recorded: class 3 among those that are no subclasses. -/
example : ∃ s', isSubclass table 100 (some 3) 1 sets = .ok false s' ∧ HasEntry s' 1 .negative 3 ∧
    ¬ HasEntry s' 1 .cache 3 := by
  refine ⟨_, rfl, ⟨[3], rfl, by decide⟩, ?_⟩
  rintro ⟨l, hl, hx⟩
  cases hl
  cases hx

/-- Class 0 is registered with class 1 only; class 3 then passes for a subclass of class 2 as well. -/
example : ∃ s', isSubclass table 2 (some 3) 2 (fun b a => if b = 1 then some (if a = .registry then [0] else []) else none) =
    .ok true s' ∧ HasEntry s' 1 .cache 3 :=
  C81_violated_inherited (r := 0) (l := []) (n := 0) rfl rfl (by decide) (fun a => by cases a <;> rfl) rfl rfl (by decide)

/-- And they satisfy the assumptions. -/
example : ∃ b s', isSubclass table 9 (some 3) 1 sets = .ok b s' ∧ OwnSets table (fun _ => []) s' ∧
    (b = true ↔ 1 ∈ table.mro 3) := by
  have hd : ∀ cls r, r ∈ table.subclasses cls → cls ∈ table.mro r := by
    intro cls r h
    simp only [table] at h ⊢
    split at h <;> grind
  have ht : ∀ a b c, a ∈ table.mro b → b ∈ table.mro c → a ∈ table.mro c := by
    intro a b c h1 h2
    simp only [table] at h1 h2 ⊢
    grind
  have hm := fun c cls => C81_meaning (mro := table.mro) (registry := fun _ => [])
    (derived := table.subclasses) (fun _ => rfl) hd ht c cls
  obtain ⟨b, s', h1, h2, h3⟩ := C81_subclass_partial (W := table) (registry := fun _ => []) (fun _ _ => rfl)
    (rank := fun c => if c = 0 then 2 else if c = 1 then 1 else 0)
    (by intro cls r h; simp only [table, List.not_mem_nil, false_or] at h; grind)
    (fun cls c _ => hm c cls) 3 9 1 sets (by decide)
    ⟨fun cls hp => by
        by_cases h2 : cls = 2
        · exact ⟨[1, 0], by simp [table, h2]⟩
        · exact ⟨[0], by simp [table] at hp; simp [table, h2, hp]⟩,
      fun _ _ _ => by simp [sets], fun _ _ => rfl⟩
  exact ⟨b, s', h1, h2, h3.trans (hm 3 1)⟩

end SubclassExample

end Popsynth
