import Verif.Model.Settings
import Verif.Lemmas.Py

/-! C70: the package configuration and the file that overrides it. -/

set_option autoImplicit false
set_option linter.unusedSectionVars false

namespace Popsynth

variable {V : Type}

/-! ### Specification -/

namespace Spec

/-- There is the value `v` at the path `p`. -/
inductive Has : CTree V → List String → V → Prop where
  | leaf (v : V) : Has (.leaf v) [] v
  | here {k : String} {sub rest : CTree V} {p : List String} {v : V} :
      Has sub p v → Has (.cons k sub rest) (k :: p) v
  | there {k k' : String} {sub rest : CTree V} {p : List String} {v : V} :
      Has rest (k' :: p) v → Has (.cons k sub rest) (k' :: p) v

/-- There are named entries (possibly none) at the path `p`. -/
inductive Branch : CTree V → List String → Prop where
  | nil : Branch .nil []
  | cons (k : String) (sub rest : CTree V) : Branch (.cons k sub rest) []
  | here {k : String} {sub rest : CTree V} {p : List String} :
      Branch sub p → Branch (.cons k sub rest) (k :: p)
  | there {k k' : String} {sub rest : CTree V} {p : List String} :
      Branch rest (k' :: p) → Branch (.cons k sub rest) (k' :: p)

/-- The names of the entries. -/
def names : CTree V → List String
  | .leaf _ => []
  | .nil => []
  | .cons k _ rest => k :: names rest

/-- Names are not repeated, at any level. -/
def NamesOnce : CTree V → Prop
  | .leaf _ => True
  | .nil => True
  | .cons k sub rest => k ∉ names rest ∧ Branch rest [] ∧ NamesOnce sub ∧ NamesOnce rest

/-- Everything in `l` is in the structure of `c`, with values of the right type. -/
def Fits (conv : V → V → Except Err V) (c l : CTree V) : Prop :=
  (∀ p x, Has l p x → ∃ w v, Has c p w ∧ conv w x = .ok v) ∧ ∀ p, Branch l p → Branch c p

end Spec
open Spec

/-! ### Lemmas -/

theorem branch_nil (t : CTree V) : Branch t [] ↔ ∀ v, t ≠ .leaf v := by
  cases t with
  | leaf v => exact ⟨(by intro h; cases h), fun h => absurd rfl (h v)⟩
  | nil => exact ⟨(fun _ _ h => by cases h), fun _ => .nil⟩
  | cons k s r => exact ⟨(fun _ _ h => by cases h), fun _ => .cons ..⟩

theorem has_nil (t : CTree V) (v : V) : Has t [] v ↔ t = .leaf v :=
  ⟨fun h => by cases h; rfl, fun h => h ▸ .leaf v⟩

theorem entry_names (t : CTree V) (k : String) : (∃ s, t.entry k = some s) ↔ k ∈ names t := by
  induction t with
  | leaf v => simp [CTree.entry, names]
  | nil => simp [CTree.entry, names]
  | cons k' s r _ ih =>
    by_cases h : k' = k
    · simp [CTree.entry, names, h]
    · have : k ≠ k' := fun e => h e.symm
      simp [CTree.entry, names, h, this, ih]

theorem has_names {t : CTree V} {k : String} {p : List String} {v : V} (h : Has t (k :: p) v) :
    k ∈ names t := by
  generalize hq : k :: p = q at h
  induction h with
  | leaf v => cases hq
  | here _ _ => cases hq; simp [names]
  | there _ ih => simp [names, ih hq]

theorem branch_names {t : CTree V} {k : String} {p : List String} (h : Branch t (k :: p)) :
    k ∈ names t := by
  generalize hq : k :: p = q at h
  induction h with
  | nil => cases hq
  | cons => cases hq
  | here _ _ => cases hq; simp [names]
  | there _ ih => simp [names, ih hq]

theorem has_cons (t : CTree V) (ht : NamesOnce t) (k : String) (p : List String) (v : V) :
    Has t (k :: p) v ↔ ∃ s, t.entry k = some s ∧ Has s p v := by
  induction t with
  | leaf w => exact ⟨(by intro h; cases h), (by rintro ⟨s, h, -⟩; cases h)⟩
  | nil => exact ⟨(by intro h; cases h), (by rintro ⟨s, h, -⟩; cases h)⟩
  | cons k' s r _ ih =>
    obtain ⟨h1, -, -, h4⟩ := ht
    by_cases h : k' = k
    · subst h
      simp only [CTree.entry, if_true, Option.some.injEq, exists_eq_left']
      constructor
      · intro h
        cases h with
        | here h => exact h
        | there h => exact absurd (has_names h) h1
      · exact .here
    · simp only [CTree.entry, if_neg h]
      rw [← ih h4]
      constructor
      · intro h'
        cases h' with
        | here _ => exact absurd rfl h
        | there h' => exact h'
      · exact .there

theorem branch_cons (t : CTree V) (ht : NamesOnce t) (k : String) (p : List String) :
    Branch t (k :: p) ↔ ∃ s, t.entry k = some s ∧ Branch s p := by
  induction t with
  | leaf w => exact ⟨(by intro h; cases h), (by rintro ⟨s, h, -⟩; cases h)⟩
  | nil => exact ⟨(by intro h; cases h), (by rintro ⟨s, h, -⟩; cases h)⟩
  | cons k' s r _ ih =>
    obtain ⟨h1, -, -, h4⟩ := ht
    by_cases h : k' = k
    · subst h
      simp only [CTree.entry, if_true, Option.some.injEq, exists_eq_left']
      constructor
      · intro h
        cases h with
        | here h => exact h
        | there h => exact absurd (branch_names h) h1
      · exact .here
    · simp only [CTree.entry, if_neg h]
      rw [← ih h4]
      constructor
      · intro h'
        cases h' with
        | here _ => exact absurd rfl h
        | there h' => exact h'
      · exact .there

theorem entry_put (t : CTree V) (k : String) (m : CTree V) (k' : String) :
    (t.put k m).entry k' = if k' = k then (t.entry k).map fun _ => m else t.entry k' := by
  induction t with
  | leaf v => simp [CTree.put, CTree.entry]
  | nil => simp [CTree.put, CTree.entry]
  | cons j s r _ ih =>
    by_cases h : j = k
    · subst h
      by_cases h' : k' = j
      · subst h'; simp [CTree.put, CTree.entry]
      · have : ¬ j = k' := fun e => h' e.symm
        simp [CTree.put, CTree.entry, h', this]
    · by_cases h' : k' = k
      · subst h'; simp [CTree.put, CTree.entry, h, ih]
      · simp [CTree.put, CTree.entry, h, ih, h']

theorem put_same (t : CTree V) (k : String) (m : CTree V) (h : t.entry k = some m) :
    t.put k m = t := by
  induction t with
  | leaf v => rfl
  | nil => rfl
  | cons j s r _ ih =>
    by_cases e : j = k
    · simp only [CTree.entry, if_pos e, Option.some.injEq] at h
      simp [CTree.put, e, h]
    · simp only [CTree.entry, if_neg e] at h
      simp [CTree.put, e, ih h]

theorem names_put (t : CTree V) (k : String) (m : CTree V) : names (t.put k m) = names t := by
  induction t with
  | leaf v => rfl
  | nil => rfl
  | cons j s r _ ih =>
    by_cases e : j = k
    · simp [CTree.put, e, names]
    · simp [CTree.put, e, names, ih]

theorem branch_put (t : CTree V) (k : String) (m : CTree V) :
    Branch (t.put k m) [] ↔ Branch t [] := by
  rw [branch_nil, branch_nil]
  cases t with
  | leaf v => rfl
  | nil => rfl
  | cons j s r =>
    unfold CTree.put
    split <;> simp

theorem namesOnce_put (t : CTree V) (k : String) (m : CTree V) (ht : NamesOnce t) (hm : NamesOnce m) :
    NamesOnce (t.put k m) := by
  induction t with
  | leaf v => trivial
  | nil => trivial
  | cons j s r _ ih =>
    obtain ⟨h1, h2, h3, h4⟩ := ht
    unfold CTree.put
    split
    · exact ⟨h1, h2, hm, h4⟩
    · exact ⟨by rw [names_put]; exact h1, (branch_put ..).2 h2, h3, ih h4⟩

theorem namesOnce_entry {t : CTree V} (ht : NamesOnce t) {k : String} {s : CTree V}
    (h : t.entry k = some s) : NamesOnce s := by
  induction t with
  | leaf v => cases h
  | nil => cases h
  | cons j s' r _ ih =>
    obtain ⟨-, -, h3, h4⟩ := ht
    by_cases e : j = k
    · simp only [CTree.entry, if_pos e, Option.some.injEq] at h
      exact h ▸ h3
    · simp only [CTree.entry, if_neg e] at h
      exact ih h4 h

theorem merge_leaf (conv : V → V → Except Err V) (c : CTree V) (v : V) :
    mergeConfig conv c (.leaf v) = match c with
      | .leaf w => (conv w v).map .leaf
      | _ => .error .value := by
  cases c <;> simp [mergeConfig]

theorem merge_leaf_left (conv : V → V → Except Err V) (w : V) (l : CTree V) (h : Branch l []) :
    mergeConfig conv (.leaf w) l = .error .value := by
  cases l with
  | leaf v => cases h
  | nil => simp [mergeConfig]
  | cons k s r => simp [mergeConfig]

theorem merge_nil (conv : V → V → Except Err V) (c : CTree V) (h : Branch c []) :
    mergeConfig conv c .nil = .ok c := by
  cases c with
  | leaf v => cases h
  | nil => simp [mergeConfig]
  | cons k s r => simp [mergeConfig]

theorem merge_cons (conv : V → V → Except Err V) (c : CTree V) (h : Branch c []) (k : String)
    (t rest : CTree V) :
    mergeConfig conv c (.cons k t rest) = match c.entry k with
      | none => .error .key
      | some ct => mergeConfig conv ct t >>= fun m => mergeConfig conv (c.put k m) rest := by
  cases c with
  | leaf v => cases h
  | nil => rw [mergeConfig]; rfl; simp
  | cons j s r => rw [mergeConfig]; rfl; simp

/-- What a successful merge with named entries did. -/
theorem merge_cons_ok {conv : V → V → Except Err V} {c : CTree V} {k : String}
    {t rest r : CTree V} (h : mergeConfig conv c (.cons k t rest) = .ok r) :
    Branch c [] ∧ ∃ ct m, c.entry k = some ct ∧ mergeConfig conv ct t = .ok m ∧
      mergeConfig conv (c.put k m) rest = .ok r := by
  have hb : Branch c [] := by
    rw [branch_nil]
    rintro v rfl
    rw [merge_leaf_left _ _ _ (.cons ..)] at h
    cases h
  refine ⟨hb, ?_⟩
  rw [merge_cons _ _ hb] at h
  cases he : c.entry k with
  | none => rw [he] at h; cases h
  | some ct =>
    rw [he] at h
    dsimp only at h
    cases hm : mergeConfig conv ct t with
    | error e => rw [hm] at h; cases h
    | ok m =>
      rw [hm] at h
      exact ⟨ct, m, rfl, hm, h⟩

/-! ### Theorems -/

/-- **C70 (merging).** If the defaults and the file can be merged, then the result has a value
wherever the defaults have one and nowhere else: the converted value of the file where the file has
one, and the default where it has none. -/
theorem C70_merge (conv : V → V → Except Err V) (c l r : CTree V) (hc : NamesOnce c) (hl : NamesOnce l)
    (h : mergeConfig conv c l = .ok r) :
    NamesOnce r ∧ ∀ p v, Has r p v ↔
      (∃ w x, Has c p w ∧ Has l p x ∧ conv w x = .ok v) ∨ (Has c p v ∧ ∀ x, ¬ Has l p x) := by
  induction l generalizing c r with
  | leaf x =>
    rw [merge_leaf] at h
    cases c with
    | nil => cases h
    | cons k s t => cases h
    | leaf w =>
      dsimp only at h
      cases hv : conv w x with
      | error e => rw [hv] at h; cases h
      | ok v =>
        rw [hv] at h
        cases h
        refine ⟨trivial, fun p u => ?_⟩
        constructor
        · intro hu
          cases hu
          exact .inl ⟨w, x, .leaf w, .leaf x, hv⟩
        · rintro (⟨w', x', h1, h2, h3⟩ | ⟨h1, h2⟩)
          · cases h1
            cases h2
            rw [hv] at h3
            cases h3
            exact .leaf _
          · cases h1
            exact absurd (.leaf x) (h2 x)
  | nil =>
    have hb : Branch c [] := by
      rw [branch_nil]
      rintro v rfl
      rw [merge_leaf_left _ _ _ .nil] at h
      cases h
    rw [merge_nil _ _ hb] at h
    cases h
    refine ⟨hc, fun p v => ⟨fun hv => .inr ⟨hv, fun x hx => by cases hx⟩, ?_⟩⟩
    rintro (⟨w, x, -, hx, -⟩ | ⟨hv, -⟩)
    · cases hx
    · exact hv
  | cons k t rest iht ihr =>
    obtain ⟨hb, ct, m, he, hm, hr⟩ := merge_cons_ok h
    have hl' := hl
    obtain ⟨hl1, hl2, hl3, hl4⟩ := hl'
    obtain ⟨pm, im⟩ := iht ct m (namesOnce_entry hc he) hl3 hm
    have pc := namesOnce_put c k m hc pm
    obtain ⟨pr, ir⟩ := ihr (c.put k m) r pc hl4 hr
    refine ⟨pr, fun p v => ?_⟩
    rw [ir p v]
    cases p with
    | nil =>
      have n1 : ∀ w, ¬ Has (c.put k m) [] w := fun w hw =>
        (branch_nil _).1 ((branch_put ..).2 hb) w ((has_nil _ _).1 hw)
      have n2 : ∀ w, ¬ Has c [] w := fun w hw => (branch_nil _).1 hb w ((has_nil _ _).1 hw)
      simp [n1, n2]
    | cons k' q =>
      by_cases hk : k' = k
      · subst hk
        have n : ∀ x, ¬ Has rest (k' :: q) x := fun x hx => hl1 (has_names hx)
        have e1 : ∀ w, Has (c.put k' m) (k' :: q) w ↔ Has m q w := fun w => by
          rw [has_cons _ pc, entry_put, if_pos rfl, he]; simp
        have e2 : ∀ w, Has c (k' :: q) w ↔ Has ct q w := fun w => by
          rw [has_cons _ hc, he]; simp
        have e3 : ∀ x, Has (CTree.cons k' t rest) (k' :: q) x ↔ Has t q x := fun x => by
          rw [has_cons _ hl]; simp [CTree.entry]
        simp only [n, e1, e2, e3, false_and, and_false, exists_false, false_or, not_false_eq_true,
          implies_true, and_true]
        exact im q v
      · have e1 : ∀ w, Has (c.put k m) (k' :: q) w ↔ Has c (k' :: q) w := fun w => by
          rw [has_cons _ pc, has_cons _ hc, entry_put, if_neg hk]
        have e3 : ∀ x, Has (CTree.cons k t rest) (k' :: q) x ↔ Has rest (k' :: q) x := fun x => by
          rw [has_cons _ hl, has_cons _ hl4]
          have : ¬ k = k' := fun e => hk e.symm
          simp [CTree.entry, this]
        simp only [e1, e3]

/-- **C70 (accepted).** A file is accepted exactly if it has nothing that the structure of the
configuration does not have and every value can be converted to the type of its field. -/
theorem C70_accepted (conv : V → V → Except Err V) (c l : CTree V) (hc : NamesOnce c)
    (hl : NamesOnce l) : (∃ r, mergeConfig conv c l = .ok r) ↔ Fits conv c l := by
  induction l generalizing c with
  | leaf x =>
    rw [merge_leaf]
    cases c with
    | leaf w =>
      dsimp only
      constructor
      · rintro ⟨r, h⟩
        cases hv : conv w x with
        | error e => rw [hv] at h; cases h
        | ok v =>
          exact ⟨(fun p y hy => by cases hy; exact ⟨w, v, .leaf w, hv⟩), (fun p hp => by cases hp)⟩
      · rintro ⟨h, -⟩
        obtain ⟨w', v, h1, h2⟩ := h [] x (.leaf x)
        cases h1
        exact ⟨.leaf v, by rw [h2]; rfl⟩
    | nil =>
      refine ⟨(by rintro ⟨r, h⟩; cases h), fun ⟨h, _⟩ => ?_⟩
      obtain ⟨w, v, h1, -⟩ := h [] x (.leaf x)
      cases h1
    | cons k s r =>
      refine ⟨(by rintro ⟨r, h⟩; cases h), fun ⟨h, _⟩ => ?_⟩
      obtain ⟨w, v, h1, -⟩ := h [] x (.leaf x)
      cases h1
  | nil =>
    constructor
    · rintro ⟨r, h⟩
      refine ⟨(fun p x hx => by cases hx), fun p hp => ?_⟩
      cases hp
      rw [branch_nil]
      rintro v rfl
      rw [merge_leaf_left _ _ _ .nil] at h
      cases h
    · rintro ⟨-, h⟩
      exact ⟨c, merge_nil _ _ (h [] .nil)⟩
  | cons k t rest iht ihr =>
    have hl' := hl
    obtain ⟨hl1, hl2, hl3, hl4⟩ := hl'
    have lh : ∀ q x, Has (CTree.cons k t rest) (k :: q) x ↔ Has t q x := fun q x => by
      rw [has_cons _ hl]; simp [CTree.entry]
    have lb : ∀ q, Branch (CTree.cons k t rest) (k :: q) ↔ Branch t q := fun q => by
      rw [branch_cons _ hl]; simp [CTree.entry]
    have oh : ∀ k' q x, k' ≠ k →
        (Has (CTree.cons k t rest) (k' :: q) x ↔ Has rest (k' :: q) x) := fun k' q x hk => by
      rw [has_cons _ hl, has_cons _ hl4]
      have : ¬ k = k' := fun e => hk e.symm
      simp [CTree.entry, this]
    have ob : ∀ k' q, k' ≠ k →
        (Branch (CTree.cons k t rest) (k' :: q) ↔ Branch rest (k' :: q)) := fun k' q hk => by
      rw [branch_cons _ hl, branch_cons _ hl4]
      have : ¬ k = k' := fun e => hk e.symm
      simp [CTree.entry, this]
    -- replacing the entry `k` does not matter for `rest`
    have same : ∀ m, NamesOnce m → Branch c [] → (Fits conv (c.put k m) rest ↔ Fits conv c rest) := by
      intro m pm hb
      have pc := namesOnce_put c k m hc pm
      have e1 : ∀ k' q w, k' ≠ k → (Has (c.put k m) (k' :: q) w ↔ Has c (k' :: q) w) :=
        fun k' q w hk => by rw [has_cons _ pc, has_cons _ hc, entry_put, if_neg hk]
      have e2 : ∀ k' q, k' ≠ k → (Branch (c.put k m) (k' :: q) ↔ Branch c (k' :: q)) :=
        fun k' q hk => by rw [branch_cons _ pc, branch_cons _ hc, entry_put, if_neg hk]
      have nk : ∀ k' q x, Has rest (k' :: q) x → k' ≠ k := by
        rintro k' q x hx rfl; exact hl1 (has_names hx)
      have bk : ∀ k' q, Branch rest (k' :: q) → k' ≠ k := by
        rintro k' q hx rfl; exact hl1 (branch_names hx)
      constructor
      · rintro ⟨h1, h2⟩
        refine ⟨fun p x hx => ?_, fun p hp => ?_⟩
        · cases p with
          | nil => exact absurd ((has_nil _ _).1 hx) ((branch_nil _).1 hl2 x)
          | cons k' q =>
            obtain ⟨w, v, a, b⟩ := h1 _ _ hx
            exact ⟨w, v, (e1 _ _ _ (nk _ _ _ hx)).1 a, b⟩
        · cases p with
          | nil => exact hb
          | cons k' q => exact (e2 _ _ (bk _ _ hp)).1 (h2 _ hp)
      · rintro ⟨h1, h2⟩
        refine ⟨fun p x hx => ?_, fun p hp => ?_⟩
        · cases p with
          | nil => exact absurd ((has_nil _ _).1 hx) ((branch_nil _).1 hl2 x)
          | cons k' q =>
            obtain ⟨w, v, a, b⟩ := h1 _ _ hx
            exact ⟨w, v, (e1 _ _ _ (nk _ _ _ hx)).2 a, b⟩
        · cases p with
          | nil => exact (branch_put ..).2 hb
          | cons k' q => exact (e2 _ _ (bk _ _ hp)).2 (h2 _ hp)
    constructor
    · rintro ⟨r, h⟩
      obtain ⟨hb, ct, m, he, hm, hr⟩ := merge_cons_ok h
      have pct := namesOnce_entry hc he
      obtain ⟨pm, -⟩ := C70_merge conv ct t m pct hl3 hm
      obtain ⟨f1, f2⟩ := (iht ct pct hl3).1 ⟨m, hm⟩
      obtain ⟨g1, g2⟩ := (same m pm hb).1 ((ihr _ (namesOnce_put c k m hc pm) hl4).1 ⟨r, hr⟩)
      refine ⟨fun p x hx => ?_, fun p hp => ?_⟩
      · cases p with
        | nil => cases hx
        | cons k' q =>
          by_cases hk : k' = k
          · subst hk
            obtain ⟨w, v, a, b⟩ := f1 _ _ ((lh q x).1 hx)
            exact ⟨w, v, (has_cons _ hc _ _ _).2 ⟨ct, he, a⟩, b⟩
          · exact g1 _ _ ((oh _ _ _ hk).1 hx)
      · cases p with
        | nil => exact hb
        | cons k' q =>
          by_cases hk : k' = k
          · subst hk
            exact (branch_cons _ hc _ _).2 ⟨ct, he, f2 _ ((lb q).1 hp)⟩
          · exact g2 _ ((ob _ _ hk).1 hp)
    · rintro ⟨f1, f2⟩
      have hb : Branch c [] := f2 [] (.cons ..)
      -- the structure has the entry
      obtain ⟨ct, he⟩ : ∃ ct, c.entry k = some ct := by
        cases ht : t with
        | leaf x =>
          obtain ⟨w, v, a, -⟩ := f1 [k] x ((lh [] x).2 ((has_nil _ _).2 ht))
          obtain ⟨s, h, -⟩ := (has_cons _ hc _ _ _).1 a
          exact ⟨s, h⟩
        | nil =>
          obtain ⟨s, h, -⟩ := (branch_cons _ hc _ _).1 (f2 [k] ((lb []).2 (ht ▸ .nil)))
          exact ⟨s, h⟩
        | cons a b d =>
          obtain ⟨s, h, -⟩ := (branch_cons _ hc _ _).1 (f2 [k] ((lb []).2 (ht ▸ .cons ..)))
          exact ⟨s, h⟩
      have pct := namesOnce_entry hc he
      have ft : Fits conv ct t := by
        refine ⟨fun q x hx => ?_, fun q hq => ?_⟩
        · obtain ⟨w, v, a, b⟩ := f1 (k :: q) x ((lh q x).2 hx)
          obtain ⟨s, h, h'⟩ := (has_cons _ hc _ _ _).1 a
          rw [he] at h
          cases h
          exact ⟨w, v, h', b⟩
        · obtain ⟨s, h, h'⟩ := (branch_cons _ hc _ _).1 (f2 _ ((lb q).2 hq))
          rw [he] at h
          cases h
          exact h'
      obtain ⟨m, hm⟩ := (iht ct pct hl3).2 ft
      obtain ⟨pm, -⟩ := C70_merge conv ct t m pct hl3 hm
      have fr : Fits conv c rest := by
        refine ⟨fun p x hx => ?_, fun p hp => ?_⟩
        · cases p with
          | nil => exact absurd ((has_nil _ _).1 hx) ((branch_nil _).1 hl2 x)
          | cons k' q =>
            have hk : k' ≠ k := by rintro rfl; exact hl1 (has_names hx)
            exact f1 _ _ ((oh _ _ _ hk).2 hx)
        · cases p with
          | nil => exact hb
          | cons k' q =>
            have hk : k' ≠ k := by rintro rfl; exact hl1 (branch_names hp)
            exact f2 _ ((ob _ _ hk).2 hp)
      obtain ⟨r, hr⟩ := (ihr _ (namesOnce_put c k m hc pm) hl4).2 ((same m pm hb).2 fr)
      refine ⟨r, ?_⟩
      rw [merge_cons _ _ hb, he]
      dsimp only
      rw [hm]
      exact hr

theorem merge_self_aux (conv : V → V → Except Err V) (l c : CTree V) (hl : NamesOnce l)
    (hv : ∀ p v, Has l p v → conv v v = .ok v) (hf : ∀ v, l = .leaf v → c = .leaf v)
    (hb : Branch l [] → Branch c [])
    (he : ∀ k t, l.entry k = some t → c.entry k = some t) : mergeConfig conv c l = .ok c := by
  induction l generalizing c with
  | leaf v =>
    rw [hf v rfl, merge_leaf]
    dsimp only
    rw [hv [] v (.leaf v)]
    rfl
  | nil => exact merge_nil _ _ (hb .nil)
  | cons k t rest iht ihr =>
    have hl' := hl
    obtain ⟨h1, h2, h3, h4⟩ := hl'
    have e : c.entry k = some t := he k t (by simp [CTree.entry])
    rw [merge_cons _ _ (hb (.cons ..)), e]
    dsimp only
    have s : mergeConfig conv t t = .ok t :=
      iht t h3 (fun p v h => hv _ _ (.here h)) (fun _ h => h) id (fun _ _ h => h)
    rw [s]
    show mergeConfig conv (c.put k t) rest = _
    rw [put_same _ _ _ e]
    refine ihr c h4 (fun p v h => ?_) (fun v h => absurd h ((branch_nil _).1 h2 v))
      (fun _ => hb (.cons ..)) (fun k' t' h => he k' t' ?_)
    · cases p with
      | nil => exact absurd ((has_nil _ _).1 h) ((branch_nil _).1 h2 v)
      | cons k' q => exact hv _ _ (.there h)
    · have hk : ¬ k = k' := by
        rintro rfl
        exact h1 ((entry_names _ _).1 ⟨_, h⟩)
      simp [CTree.entry, hk, h]

/-- **C70 (written file).** If values of the right type are kept by the conversion, then the file
that the first import writes is accepted by every later one and changes nothing. -/
theorem C70_written (conv : V → V → Except Err V) (c : CTree V) (hc : NamesOnce c)
    (hv : ∀ p v, Has c p v → conv v v = .ok v) :
    importConfig conv c none = .ok c (some c) ∧
    importConfig conv c (some c) = .ok c (some c) := by
  refine ⟨rfl, ?_⟩
  unfold importConfig
  dsimp only
  rw [merge_self_aux conv c c hc hv (fun _ h => h) id fun _ _ h => h]

/-- **C70 (file kept).** An existing file is never changed by importing the package, whether the
import succeeds or not; without a file the import succeeds and writes the defaults. -/
theorem C70_file_kept (conv : V → V → Except Err V) (c : CTree V) (file : Option (CTree V)) :
    endState (importConfig conv c file) = some (file.getD c) ∧
    (file = none → outcome (importConfig conv c file) = .ok c) := by
  unfold importConfig
  cases file with
  | none => exact ⟨rfl, fun _ => rfl⟩
  | some l =>
    refine ⟨?_, fun h => by cases h⟩
    dsimp only
    cases mergeConfig conv c l <;> rfl

/-! ### The settings of popsynth -/

section
variable {F : Type}

theorem value_iff (c : CTree V) (hc : NamesOnce c) (p : List String) (v : V) :
    c.value p = .ok v ↔ Has c p v := by
  have hr : ∀ (p : List String) (c : CTree V), NamesOnce c → ∀ v,
      (c.read p = .ok (.leaf v) ↔ Has c p v) := by
    intro p
    induction p with
    | nil => intro c _ v; rw [has_nil]; simp [CTree.read]
    | cons k q ih =>
      intro c hc v
      rw [has_cons _ hc]
      unfold CTree.read
      cases he : c.entry k with
      | none => simp
      | some s => simp [ih s (namesOnce_entry hc he)]
  rw [← hr p c hc v]
  unfold CTree.value
  cases c.read p with
  | error e => simp
  | ok t => cases t <;> simp

theorem except_bind_iff {α β : Type} (x : Except Err α) (f : α → Except Err β) (b : β) :
    (x >>= f) = .ok b ↔ ∃ a, x = .ok a ∧ f a = .ok b := by
  cases x <;> simp [bind, Except.bind]

/-- The numbers Python's `logging` gives to the names of levels. -/
def Spec.levels : List (String × Nat) :=
  [("DEBUG", 10), ("INFO", 20), ("WARNING", 30), ("WARN", 30), ("ERROR", 40), ("CRITICAL", 50),
    ("FATAL", 50), ("NOTSET", 0)]

theorem levelOf_iff (u : String) (n : Nat) : levelOf u = .ok n ↔ (u, n) ∈ Spec.levels := by
  unfold levelOf Spec.levels
  split <;> simp_all [lvlDebug, lvlInfo, lvlWarning, lvlError, lvlCritical, eq_comm]

/-- **C70 (settings).** What importing the package takes from a configuration is exactly what is
at these paths: the level of the file handler, that of the console handler, whether there is a
debug file, a console and a log file, the two numbers of the cosmology and whether progress is
shown.  The levels stored for `activate_logs` are those, too, and no filter is set. -/
theorem C70_settings (c : CTree (CVal F)) (hc : NamesOnce c) (s : Settings F) :
    readSettings c = .ok s ↔
      (∃ u, Has c ["logging", "file", "level"] (.str u) ∧ (u, s.log.usr) ∈ Spec.levels) ∧
      (∃ u, Has c ["logging", "console", "level"] (.str u) ∧ (u, s.log.con) ∈ Spec.levels) ∧
      Has c ["logging", "debug"] (.bool s.setup.debug) ∧
      Has c ["logging", "console", "on"] (.bool s.setup.console) ∧
      Has c ["logging", "file", "on"] (.bool s.setup.file) ∧
      Has c ["cosmology", "Om"] (.num s.Om) ∧ Has c ["cosmology", "h0"] (.num s.h0) ∧
      Has c ["show_progress"] (.bool s.log.progress) ∧
      s.log.dev = 10 ∧ s.log.usrStored = s.log.usr ∧ s.log.conStored = s.log.con ∧
      s.log.usrFilters = [] ∧ s.log.conFilters = [] := by
  have hs : ∀ (v : CVal F) u, v.asStr = .ok u ↔ v = .str u := fun v u => by
    cases v <;> simp [CVal.asStr]
  have hb : ∀ (v : CVal F) b, v.asBool = .ok b ↔ v = .bool b := fun v u => by
    cases v <;> simp [CVal.asBool]
  have hn : ∀ (v : CVal F) x, v.asNum = .ok x ↔ v = .num x := fun v u => by
    cases v <;> simp [CVal.asNum]
  simp only [← levelOf_iff]
  unfold readSettings
  simp only [except_bind_iff, value_iff c hc, hs, hb, hn]
  constructor
  · rintro ⟨_, h1, u, rfl, lu, hu, _, h2, k, rfl, lk, hk, _, h3, b1, rfl, _, h4, b2, rfl, _, h5, b3,
      rfl, _, h6, x1, rfl, _, h7, x2, rfl, _, h8, b4, rfl, h⟩
    cases h
    exact ⟨⟨u, h1, hu⟩, ⟨k, h2, hk⟩, h3, h4, h5, h6, h7, h8, rfl, rfl, rfl, rfl, rfl⟩
  · rintro ⟨⟨u, h1, hu⟩, ⟨k, h2, hk⟩, h3, h4, h5, h6, h7, h8, g1, g2, g3, g4, g5⟩
    refine ⟨_, h1, u, rfl, _, hu, _, h2, k, rfl, _, hk, _, h3, _, rfl, _, h4, _, rfl, _, h5, _,
      rfl, _, h6, _, rfl, _, h7, _, rfl, _, h8, _, rfl, ?_⟩
    obtain ⟨lg, su, om, h⟩ := s
    obtain ⟨dev, usr, con, us, cs, uf, cf, pr⟩ := lg
    dsimp only at g1 g2 g3 g4 g5
    subst g1 g2 g3 g4 g5
    rfl

theorem namesOnce_default (om h : F) : NamesOnce (defaultConfig om h) := by
  simp [defaultConfig, CTree.ofList, NamesOnce, names, branch_nil]

/-- **C70 (defaults).** Without a file the package logs warnings and worse to console and file,
has no debug file, shows progress and uses the two documented numbers for the cosmology; the file
it writes gives the same settings at the next import. -/
theorem C70_defaults (conv : CVal F → CVal F → Except Err (CVal F)) (hv : ∀ v, conv v v = .ok v)
    (om h : F) :
    ∃ c, importConfig conv (defaultConfig om h) none = .ok c (some c) ∧
      importConfig conv (defaultConfig om h) (some c) = .ok c (some c) ∧
      readSettings c = .ok
        { log := { dev := 10, usr := 30, con := 30, usrStored := 30, conStored := 30 }
          setup := { debug := false, console := true, file := true }, Om := om, h0 := h } := by
  obtain ⟨h1, h2⟩ := C70_written conv _ (namesOnce_default om h) fun _ v _ => hv v
  exact ⟨_, h1, h2, rfl⟩

/-- Conversion keeps the type of the field. -/
def Spec.KeepsType (conv : CVal F → CVal F → Except Err (CVal F)) : Prop :=
  ∀ w x v, conv w x = .ok v → match w with
    | .bool _ => ∃ b, v = .bool b
    | .str _ => ∃ s, v = .str s
    | .num _ => ∃ y, v = .num y

/-- **C70 (usable, partial).** Wanted: every file that is accepted gives settings.  That is false
(`C70_violated_level`).  Proved if the two levels that result are names Python knows. -/
theorem C70_usable_partial (conv : CVal F → CVal F → Except Err (CVal F)) (hk : KeepsType conv)
    (om h : F) (l c : CTree (CVal F)) (hl : NamesOnce l)
    (hm : importConfig conv (defaultConfig om h) (some l) = .ok c (some l))
    (hlev : ∀ k ∈ ["file", "console"], ∀ u, Has c ["logging", k, "level"] (.str u) →
      u ∈ Spec.levels.map (·.1)) :
    ∃ s, readSettings c = .ok s := by
  have hm' : mergeConfig conv (defaultConfig om h) l = .ok c := by
    unfold importConfig at hm
    dsimp only at hm
    cases e : mergeConfig conv (defaultConfig om h) l with
    | error x => rw [e] at hm; cases hm
    | ok r => rw [e] at hm; cases hm; rfl
  have pd := namesOnce_default om h
  obtain ⟨pc, hc⟩ := C70_merge conv _ l c pd hl hm'
  have fits := (C70_accepted conv _ l pd hl).1 ⟨c, hm'⟩
  have get : ∀ p w, Has (defaultConfig om h) p w → ∃ v, Has c p v ∧
      ((∃ x, conv w x = .ok v) ∨ v = w) := by
    intro p w hw
    by_cases hx : ∃ x, Has l p x
    · obtain ⟨x, hx⟩ := hx
      obtain ⟨w', v, h1, h2⟩ := fits.1 p x hx
      have : w' = w := by
        have a := (value_iff _ pd p w').2 h1
        have b := (value_iff _ pd p w).2 hw
        rw [a] at b
        cases b
        rfl
      subst this
      exact ⟨v, (hc p v).2 (.inl ⟨w', x, hw, hx, h2⟩), .inl ⟨x, h2⟩⟩
    · exact ⟨w, (hc p w).2 (.inr ⟨hw, fun x h => hx ⟨x, h⟩⟩), .inr rfl⟩
  have gb : ∀ p b, (defaultConfig om h).value p = .ok (.bool b) → ∃ b', Has c p (.bool b') := by
    intro p b e
    obtain ⟨v, h1, h2⟩ := get p _ ((value_iff _ pd _ _).1 e)
    rcases h2 with ⟨x, h2⟩ | rfl
    · obtain ⟨b', rfl⟩ := hk _ _ _ h2; exact ⟨b', h1⟩
    · exact ⟨_, h1⟩
  have gs : ∀ p b, (defaultConfig om h).value p = .ok (.str b) → ∃ b', Has c p (.str b') := by
    intro p b e
    obtain ⟨v, h1, h2⟩ := get p _ ((value_iff _ pd _ _).1 e)
    rcases h2 with ⟨x, h2⟩ | rfl
    · obtain ⟨b', rfl⟩ := hk _ _ _ h2; exact ⟨b', h1⟩
    · exact ⟨_, h1⟩
  have gn : ∀ p b, (defaultConfig om h).value p = .ok (.num b) → ∃ b', Has c p (.num b') := by
    intro p b e
    obtain ⟨v, h1, h2⟩ := get p _ ((value_iff _ pd _ _).1 e)
    rcases h2 with ⟨x, h2⟩ | rfl
    · obtain ⟨b', rfl⟩ := hk _ _ _ h2; exact ⟨b', h1⟩
    · exact ⟨_, h1⟩
  obtain ⟨u, hu⟩ := gs ["logging", "file", "level"] "WARNING" rfl
  obtain ⟨k, hk'⟩ := gs ["logging", "console", "level"] "WARNING" rfl
  obtain ⟨⟨_, nu⟩, eu, rfl⟩ := List.mem_map.1 (hlev "file" (by simp) u hu)
  obtain ⟨⟨_, nk⟩, ek, rfl⟩ := List.mem_map.1 (hlev "console" (by simp) k hk')
  obtain ⟨b1, h1⟩ := gb ["logging", "debug"] false rfl
  obtain ⟨b2, h2⟩ := gb ["logging", "console", "on"] true rfl
  obtain ⟨b3, h3⟩ := gb ["logging", "file", "on"] true rfl
  obtain ⟨x1, h4⟩ := gn ["cosmology", "Om"] om rfl
  obtain ⟨x2, h5⟩ := gn ["cosmology", "h0"] h rfl
  obtain ⟨b4, h6⟩ := gb ["show_progress"] true rfl
  exact ⟨{ log := { LogSt.init nu nk with progress := b4 }, setup := ⟨b1, b2, b3⟩, Om := x1, h0 := x2 },
    (C70_settings c pc _).2 ⟨⟨_, hu, eu⟩, ⟨_, hk', ek⟩, h1, h2, h3, h4, h5, h6, rfl, rfl, rfl, rfl, rfl⟩⟩

end

/-! ### Violation and examples -/

namespace SettingsExample

/-- Values of the right type are kept, others refused. -/
def conv : CVal Nat → CVal Nat → Except Err (CVal Nat)
  | .bool _, .bool b => .ok (.bool b)
  | .str _, .str s => .ok (.str s)
  | .num _, .num x => .ok (.num x)
  | _, _ => .error .value

def level (s : String) : CTree (CVal Nat) :=
  .ofList [("logging", .ofList [("console", .ofList [("level", .leaf (.str s))])]),
    ("show_progress", .leaf (.bool false))]

theorem conv_keeps : KeepsType conv := by
  intro w x v h
  cases w <;> cases x <;> simp [conv] at h <;> subst h <;> simp

/-- The console shows messages from `INFO` on, no progress; everything else as before. -/
example : ∃ c, importConfig conv (defaultConfig 307 677) (some (level "INFO")) =
      .ok c (some (level "INFO")) ∧
    readSettings c = .ok
      { log := { dev := 10, usr := 30, con := 20, usrStored := 30, conStored := 20, progress := false }
        setup := { debug := false, console := true, file := true }, Om := 307, h0 := 677 } :=
  ⟨_, rfl, by decide⟩

/-- The two merges of test_configuration.py:34-64. -/
example : ∃ c, (mergeConfig conv (defaultConfig 307 677)
        (.ofList [("show_progress", .leaf (.bool false))]) >>= fun c =>
      mergeConfig conv c (.ofList [("logging", .ofList [("console",
        .ofList [("on", .leaf (.bool false)), ("level", .leaf (.str "INFO"))])])])) = .ok c ∧
    Has c ["show_progress"] (.bool false) ∧ Has c ["logging", "console", "on"] (.bool false) ∧
    Has c ["logging", "console", "level"] (.str "INFO") :=
  ⟨_, rfl, .there (.there (.here (.leaf _))), .here (.there (.here (.here (.leaf _)))),
    .here (.there (.here (.there (.here (.leaf _)))))⟩

/-- **C70 (violated: a level that is not checked).** A file with a level Python does not know, for
example in lower case, is accepted, and then importing the package raises. -/
theorem C70_violated_level :
    ∃ c, importConfig conv (defaultConfig 307 677) (some (level "info")) =
        .ok c (some (level "info")) ∧ readSettings c = .error .value :=
  ⟨_, rfl, by decide⟩

/-- Files with an unknown entry, a value of the wrong type, or a value instead of entries. -/
example :
    outcome (importConfig conv (defaultConfig 307 677)
      (some (.ofList [("cosmology", .ofList [("Ode", .leaf (.num 700))])]))) = .error .key ∧
    outcome (importConfig conv (defaultConfig 307 677)
      (some (.ofList [("show_progress", .leaf (.str "maybe"))]))) = .error .value ∧
    outcome (importConfig conv (defaultConfig 307 677)
      (some (.ofList [("cosmology", .leaf (.num 700))]))) = .error .value := by decide

/-- `C70_merge` and `C70_usable_partial` apply. -/
example : ∃ c s, importConfig conv (defaultConfig 307 677) (some (level "INFO")) =
      .ok c (some (level "INFO")) ∧ readSettings c = .ok s ∧ Has c ["cosmology", "Om"] (.num 307) := by
  have hl : NamesOnce (level "INFO") := by
    simp [level, CTree.ofList, NamesOnce, names, branch_nil]
  obtain ⟨c, hc⟩ : ∃ c, mergeConfig conv (defaultConfig 307 677) (level "INFO") = .ok c := ⟨_, rfl⟩
  have hi : importConfig conv (defaultConfig 307 677) (some (level "INFO")) =
      .ok c (some (level "INFO")) := by unfold importConfig; dsimp only; rw [hc]
  obtain ⟨pc, hm⟩ := C70_merge conv _ _ c (namesOnce_default _ _) hl hc
  have hd := value_iff (defaultConfig (307 : Nat) 677) (namesOnce_default _ _)
  have hl' := value_iff (level "INFO") hl
  obtain ⟨s, hs⟩ := C70_usable_partial conv conv_keeps 307 677 _ c hl hi (by
    intro k hk u hu
    rcases (hm _ _).1 hu with ⟨w, x, h1, h2, h3⟩ | ⟨h1, h2⟩
    · have h2 := (hl' _ _).2 h2
      simp only [List.mem_cons, List.not_mem_nil, or_false] at hk
      rcases hk with rfl | rfl
      · exact absurd h2 (by simp [level, CTree.value, CTree.read, CTree.ofList, CTree.entry])
      · have : x = .str "INFO" := by
          have e : (level "INFO").value ["logging", "console", "level"] = .ok (.str "INFO") := rfl
          rw [e] at h2
          exact (Except.ok.inj h2).symm
        subst this
        cases w <;> simp [conv] at h3
        subst h3
        simp [Spec.levels]
    · have h1 := (hd _ _).2 h1
      simp only [List.mem_cons, List.not_mem_nil, or_false] at hk
      rcases hk with rfl | rfl
      · have e : (defaultConfig (307 : Nat) 677).value ["logging", "file", "level"] =
          .ok (.str "WARNING") := rfl
        rw [e] at h1
        cases h1
        simp [Spec.levels]
      · exact absurd ((hl' ["logging", "console", "level"] (.str "INFO")).1 rfl) (h2 _))
  refine ⟨c, s, hi, hs, (hm _ _).2 (.inr ⟨(hd _ _).1 rfl, fun x hx => ?_⟩)⟩
  have := (hl' _ _).2 hx
  simp [level, CTree.value, CTree.read, CTree.ofList, CTree.entry] at this

end SettingsExample
end Popsynth
