import Verif.Model.Py

/-! Helper lemmas about the effect monad and dictionaries. -/

namespace Popsynth

section monad
variable {σ α β : Type}

theorem bind_apply (x : Py σ α) (f : α → Py σ β) (s : σ) :
    (x >>= f) s = match x s with
      | .ok a s' => f a s'
      | .error e s' => .error e s' := by
  show EStateM.bind x f s = _
  unfold EStateM.bind
  cases x s <;> rfl

@[simp] theorem pure_apply (a : α) (s : σ) : (pure a : Py σ α) s = .ok a s := rfl

@[simp] theorem raise_apply (e : Err) (s : σ) : (raise e : Py σ α) s = .error e s := rfl

@[simp] theorem get_apply (s : σ) : (get : Py σ σ) s = .ok s s := rfl

@[simp] theorem set_apply (s s' : σ) : (set s' : Py σ PUnit) s = .ok ⟨⟩ s' := rfl

@[simp] theorem modify_apply (f : σ → σ) (s : σ) :
    (modify f : Py σ PUnit) s = .ok ⟨⟩ (f s) := rfl

@[simp] theorem modifyGet_apply (f : σ → α × σ) (s : σ) :
    (modifyGet f : Py σ α) s = .ok (f s).1 (f s).2 := rfl

theorem bind_ok_iff (x : Py σ α) (f : α → Py σ β) (s s' : σ) (b : β) :
    (x >>= f) s = .ok b s' ↔ ∃ a s1, x s = .ok a s1 ∧ f a s1 = .ok b s' := by
  rw [bind_apply]
  cases h : x s with
  | ok a s1 =>
    constructor
    · intro hf; exact ⟨a, s1, rfl, hf⟩
    · rintro ⟨a', s', h', hf⟩; cases h'; exact hf
  | error e s1 => simp

theorem bind_of_ok {x : Py σ α} {f : α → Py σ β} {s s1 : σ} {a : α}
    (h : x s = .ok a s1) : (x >>= f) s = f a s1 := by
  rw [bind_apply, h]

theorem bind_of_error {x : Py σ α} {f : α → Py σ β} {s s1 : σ} {e : Err}
    (h : x s = .error e s1) : (x >>= f) s = .error e s1 := by
  rw [bind_apply, h]

@[simp] theorem pyAssert_ok_iff (b : Bool) (s s' : σ) (u : Unit) :
    (pyAssert b : Py σ Unit) s = .ok u s' ↔ b = true ∧ s = s' := by
  cases b <;> simp [pyAssert]

@[simp] theorem liftE_ok_iff (x : Except Err α) (s s' : σ) (a : α) :
    (liftE x : Py σ α) s = .ok a s' ↔ x = .ok a ∧ s = s' := by
  cases x <;> simp [liftE]

@[simp] theorem forEach_nil (f : α → Py σ Unit) (s : σ) :
    forEach [] f s = .ok () s := rfl

theorem forEach_cons (x : α) (xs : List α) (f : α → Py σ Unit) :
    forEach (x :: xs) f = (f x >>= fun _ => forEach xs f) := rfl

theorem forEach_append (xs ys : List α) (f : α → Py σ Unit) :
    forEach (xs ++ ys) f = (forEach xs f >>= fun _ => forEach ys f) := by
  induction xs with
  | nil => rfl
  | cons x xs ih =>
    funext s
    simp only [List.cons_append, forEach_cons, bind_apply, ih]
    cases f x s <;> rfl

/-- Loop rule: an invariant of a `for` loop whose iterations all succeed. -/
theorem forEach_ok_induct {xs : List α} {f : α → Py σ Unit} {s s' : σ} {u : Unit}
    (P : σ → Prop) (h0 : P s)
    (hstep : ∀ x ∈ xs, ∀ s1 s2, P s1 → f x s1 = .ok () s2 → P s2)
    (h : forEach xs f s = .ok u s') : P s' := by
  induction xs generalizing s with
  | nil => simp at h; cases h; exact h0
  | cons x xs ih =>
    rw [forEach_cons, bind_ok_iff] at h
    obtain ⟨_, s1, h1, h2⟩ := h
    exact ih (hstep x (by simp) s s1 h0 h1)
      (fun y hy => hstep y (by simp [hy])) h2

end monad

/-- Did the call return? (used to evaluate concrete examples in the kernel) -/
def isOk {σ α : Type} : EStateM.Result Err σ α → Bool
  | .ok _ _ => true
  | .error _ _ => false

/-- The returned value, if there is one. -/
def okVal {σ α : Type} : EStateM.Result Err σ α → Option α
  | .ok a _ => some a
  | .error _ _ => none

theorem okVal_ok {σ α : Type} {r : EStateM.Result Err σ α} {a : α} {s : σ} (h : r = .ok a s) :
    okVal r = some a ∧ endState r = s := by
  subst h; exact ⟨rfl, rfl⟩

/-- The exception raised, if any. -/
def errVal {σ α : Type} : EStateM.Result Err σ α → Option Err
  | .ok _ _ => none
  | .error e _ => some e

theorem outcome_of_errVal {σ α : Type} {r : EStateM.Result Err σ α} {e : Err}
    (h : errVal r = some e) : outcome r = .error e := by
  cases r with
  | ok a s => cases h
  | error e' s => cases h; rfl

theorem exists_ok_of_isOk {σ α : Type} {r : EStateM.Result Err σ α} (h : isOk r = true) :
    ∃ a, r = .ok a (endState r) := by
  cases r with
  | ok a s => exact ⟨a, rfl⟩
  | error e s => cases h

theorem ok_of_isOk {σ : Type} {r : EStateM.Result Err σ Unit} (h : isOk r = true) :
    r = .ok () (endState r) := by
  cases r with
  | ok a s => rfl
  | error e s => cases h

theorem error_of_outcome {σ α : Type} {r : EStateM.Result Err σ α} {e : Err}
    (h : outcome r = .error e) : r = .error e (endState r) := by
  cases r with
  | ok a s => cases h
  | error e' s => cases h; rfl

theorem ok_of_outcome {σ α : Type} {r : EStateM.Result Err σ α} {a : α}
    (h : outcome r = .ok a) : r = .ok a (endState r) := by
  cases r with
  | ok a s => cases h; rfl
  | error e' s => cases h

/-! ### Relations kept by a computation (whether it returns or raises) -/

/-- `m` only moves between states related by `R`. -/
def Keeps {σ α : Type} (R : σ → σ → Prop) (m : Py σ α) : Prop := ∀ s, R s (endState (m s))

namespace Keeps
variable {σ α β : Type} {R : σ → σ → Prop}

theorem pure' (hr : ∀ s, R s s) (a : α) : Keeps R (pure a : Py σ α) := fun s => hr s
theorem raise' (hr : ∀ s, R s s) (e : Err) : Keeps R (raise e : Py σ α) := fun s => hr s
theorem get' (hr : ∀ s, R s s) : Keeps R (get : Py σ σ) := fun s => hr s
theorem modify' {f : σ → σ} (h : ∀ s, R s (f s)) : Keeps R (modify f : Py σ PUnit) := fun s => h s
theorem liftE' (hr : ∀ s, R s s) (x : Except Err α) : Keeps R (liftE x : Py σ α) := by
  cases x
  · exact raise' hr _
  · exact pure' hr _

theorem bind' (ht : ∀ a b c, R a b → R b c → R a c) {m : Py σ α} {f : α → Py σ β}
    (hm : Keeps R m) (hf : ∀ a, Keeps R (f a)) : Keeps R (m >>= f) := by
  intro s
  have h1 := hm s
  rw [bind_apply]
  cases h : m s with
  | ok a t => rw [h] at h1; exact ht _ _ _ h1 (hf a t)
  | error e t => rw [h] at h1; exact h1

theorem forEach' (hr : ∀ s, R s s) (ht : ∀ a b c, R a b → R b c → R a c) {l : List α}
    {f : α → Py σ Unit} (hf : ∀ a ∈ l, Keeps R (f a)) : Keeps R (forEach l f) := by
  induction l with
  | nil => exact pure' hr _
  | cons x xs ih =>
    exact bind' ht (hf x (by simp)) fun _ => ih fun a ha => hf a (by simp [ha])

theorem ite' {c : Prop} [Decidable c] {m m' : Py σ α} (h : Keeps R m) (h' : Keeps R m') :
    Keeps R (if c then m else m') := by
  split
  · exact h
  · exact h'

end Keeps

namespace Dict
variable {α : Type}

@[simp] theorem get?_nil (k : String) : get? ([] : Dict α) k = none := rfl

theorem get?_set (d : Dict α) (k k' : String) (v : α) :
    get? (set d k v) k' = if k = k' then some v else get? d k' := by
  induction d with
  | nil => simp [set, get?]
  | cons p t ih =>
    obtain ⟨a, b⟩ := p
    by_cases h : a = k
    · subst h; simp only [set, if_pos, get?]; split <;> rfl
    · simp only [set, if_neg h, get?, ih]
      by_cases h2 : a = k'
      · subst h2; simp [Ne.symm h]
      · simp [h2]

@[simp] theorem get?_set_self (d : Dict α) (k : String) (v : α) :
    get? (set d k v) k = some v := by simp [get?_set]

theorem get?_set_ne (d : Dict α) {k k' : String} (v : α) (h : k ≠ k') :
    get? (set d k v) k' = get? d k' := by simp [get?_set, h]

theorem get?_isSome_iff (d : Dict α) (k : String) :
    (get? d k).isSome ↔ k ∈ keys d := by
  induction d with
  | nil => simp [keys]
  | cons p t ih =>
    obtain ⟨a, b⟩ := p
    simp only [get?, keys, List.map_cons, List.mem_cons]
    by_cases h : a = k
    · simp [h]
    · simp [h, Ne.symm h, ih, keys]

theorem get?_eq_none_iff (d : Dict α) (k : String) :
    get? d k = none ↔ k ∉ keys d := by
  rw [← get?_isSome_iff]; cases get? d k <;> simp

theorem keys_set (d : Dict α) (k : String) (v : α) :
    keys (set d k v) = if k ∈ keys d then keys d else keys d ++ [k] := by
  induction d with
  | nil => simp [set, keys]
  | cons p t ih =>
    obtain ⟨a, b⟩ := p
    by_cases h : a = k
    · subst h; simp [set, keys]
    · have h' : k ≠ a := Ne.symm h
      simp only [set, if_neg h]
      simp only [keys, List.map_cons, List.mem_cons, h', false_or] at ih ⊢
      rw [ih]; by_cases hk : k ∈ List.map Prod.fst t <;> simp [hk]

theorem nodup_keys_set (d : Dict α) (k : String) (v : α) (h : (keys d).Nodup) :
    (keys (set d k v)).Nodup := by
  rw [keys_set]; split
  · exact h
  · rename_i hk
    rw [List.nodup_append]
    refine ⟨h, by simp, ?_⟩
    intro a ha b hb
    simp at hb; subst hb; intro e; subst e; exact hk ha

theorem mem_of_get? {d : Dict α} {k : String} {v : α} (h : get? d k = some v) :
    (k, v) ∈ d := by
  induction d with
  | nil => simp at h
  | cons p t ih =>
    obtain ⟨a, b⟩ := p
    simp only [get?] at h
    split at h
    · rename_i hk; subst hk; simp at h; simp [h]
    · exact List.mem_cons_of_mem _ (ih h)

theorem get?_of_mem {d : Dict α} {k : String} {v : α} (hn : (keys d).Nodup)
    (h : (k, v) ∈ d) : get? d k = some v := by
  induction d with
  | nil => simp at h
  | cons p t ih =>
    obtain ⟨a, b⟩ := p
    simp only [keys, List.map_cons, List.nodup_cons] at hn
    simp only [List.mem_cons, Prod.mk.injEq] at h
    simp only [get?]
    rcases h with ⟨rfl, rfl⟩ | h
    · simp
    · have : a ≠ k := by
        intro e; subst e; exact hn.1 (List.mem_map.2 ⟨(a, v), h, rfl⟩)
      simp [this, ih hn.2 h]

theorem set_append_of_not_mem (d : Dict α) (k : String) (v : α) (h : k ∉ keys d) :
    set d k v = d ++ [(k, v)] := by
  induction d with
  | nil => rfl
  | cons p t ih =>
    obtain ⟨a, b⟩ := p
    simp only [keys, List.map_cons, List.mem_cons, not_or] at h
    simp only [set, if_neg (Ne.symm h.1), List.cons_append]
    rw [ih h.2]

end Dict
end Popsynth
