import Verif.Model.Selection
import Verif.Lemmas.Param

/-! Helper lemmas for selections. -/

set_option linter.unusedSectionVars false

namespace Popsynth
variable {F G : Type}

theorem selParam_apply (d : ParamDecl F) (n : String) (s : SelSt F G) :
    selParam d n s = match paramGet d n s.sel.params with
      | .ok v o => .ok v { s with sel := { s.sel with params := o } }
      | .error e o => .error e { s with sel := { s.sel with params := o } } := rfl

@[simp] theorem setMask_apply (m : List Bool) (s : SelSt F G) :
    setMask m s = .ok () { s with sel := { s.sel with selection := some m } } := rfl

theorem outcome_ok_iff {σ α : Type} (r : EStateM.Result Err σ α) (a : α) :
    outcome r = .ok a ↔ ∃ s, r = .ok a s := by
  cases r <;> simp [outcome]

theorem outcome_error_iff {σ α : Type} (r : EStateM.Result Err σ α) (e : Err) :
    outcome r = .error e ↔ ∃ s, r = .error e s := by
  cases r <;> simp [outcome]

/-- Reading a parameter of a selector leaves everything but `params` alone. -/
theorem selParam_frame (d : ParamDecl F) (n : String) (s : SelSt F G) :
    (endState (selParam d n s)).sel.selection = s.sel.selection ∧
    (endState (selParam d n s)).sel.data = s.sel.data ∧
    (endState (selParam d n s)).sel.kind = s.sel.kind ∧
    (endState (selParam d n s)).sel.isSampled = s.sel.isSampled ∧
    (endState (selParam d n s)).rng = s.rng := by
  rw [selParam_apply]
  cases paramGet d n s.sel.params <;> simp [endState]

theorem selParam_ok (d : ParamDecl F) (n : String) (s : SelSt F G) (v : F)
    (h : outcome (paramGet d n s.sel.params) = .ok v) :
    ∃ o, selParam d n s = .ok v { s with sel := { s.sel with params := o } } ∧
      paramGet d n s.sel.params = .ok v o := by
  rw [outcome_ok_iff] at h
  obtain ⟨o, ho⟩ := h
  exact ⟨o, by rw [selParam_apply, ho], ho⟩

theorem outcome_paramGet_after {d d' : ParamDecl F} {n n' : String} {o o' : Obj F} {v : F}
    (h : paramGet d n o = .ok v o') (hd : n = n' → d = d') :
    outcome (paramGet d' n' o') = outcome (paramGet d' n' o) := by
  have hs : o'.storage.get? n' =
      if n = n' ∧ (o.storage.get? n').join = none then some d.default
      else o.storage.get? n' := by
    have := storage_after_get d n n' o
    rw [h] at this; exact this
  rw [outcome_paramGet, outcome_paramGet, hs]
  by_cases hc : n = n' ∧ (o.storage.get? n').join = none
  · rw [if_pos hc, hc.2, hd hc.1]
    cases hdd : d'.default <;> simp
  · rw [if_neg hc]

/-- Drawing keeps class, data and the `_is_sampled` mark of a selector. -/
def SelFrame (s t : SelSt F G) : Prop :=
  t.sel.kind = s.sel.kind ∧ t.sel.cls = s.sel.cls ∧ t.sel.name = s.sel.name ∧
    t.sel.data = s.sel.data ∧ t.sel.isSampled = s.sel.isSampled

theorem SelFrame.refl (s : SelSt F G) : SelFrame s s := ⟨rfl, rfl, rfl, rfl, rfl⟩
theorem SelFrame.trans (a b c : SelSt F G) (h : SelFrame a b) (k : SelFrame b c) :
    SelFrame a c :=
  ⟨k.1.trans h.1, k.2.1.trans h.2.1, k.2.2.1.trans h.2.2.1, k.2.2.2.1.trans h.2.2.2.1,
    k.2.2.2.2.trans h.2.2.2.2⟩

theorem selParam_keeps (d : ParamDecl F) (n : String) :
    Keeps (SelFrame (F := F) (G := G)) (selParam d n) := by
  intro s
  rw [selParam_apply]
  cases paramGet d n s.sel.params <;> exact ⟨rfl, rfl, rfl, rfl, rfl⟩

theorem setMask_keeps (m : List Bool) : Keeps (SelFrame (F := F) (G := G)) (setMask m) :=
  fun _ => ⟨rfl, rfl, rfl, rfl, rfl⟩

section
variable [LE F] [DecidableLE F] [OfNat F 0] [OfNat F 1]

theorem selDraw_keeps (env : SelEnv F G) (half ninety : F) (pb : Bool) (n : Nat) :
    Keeps (SelFrame (F := F) (G := G)) (selDraw env half ninety pb n) := by
  have hb := @Keeps.bind' (SelSt F G)
  have hr := SelFrame.refl (F := F) (G := G)
  have ht := SelFrame.trans (F := F) (G := G)
  have hrng : ∀ g : G, Keeps (SelFrame (F := F) (G := G))
      (modify fun s => { s with rng := g }) := fun g s => ⟨rfl, rfl, rfl, rfl, rfl⟩
  unfold selDraw
  refine Keeps.bind' ht (Keeps.get' hr) fun s => ?_
  split
  · exact setMask_keeps _
  · refine Keeps.ite' ?_ ?_
    · refine Keeps.bind' ht (setMask_keeps _) fun _ => Keeps.ite' (Keeps.pure' hr _) ?_
      refine Keeps.bind' ht (selParam_keeps _ _) fun _ => Keeps.ite' ?_ (Keeps.raise' hr _)
      exact Keeps.bind' ht (Keeps.get' hr) fun _ =>
        Keeps.bind' ht (setMask_keeps _) fun _ => hrng _
    · refine Keeps.bind' ht (selParam_keeps _ _) fun _ => Keeps.ite' ?_ (Keeps.raise' hr _)
      exact Keeps.bind' ht (Keeps.get' hr) fun _ =>
        Keeps.bind' ht (setMask_keeps _) fun _ => hrng _
  · exact Keeps.bind' ht (Keeps.liftE' hr _) fun _ => Keeps.bind' ht (selParam_keeps _ _) fun _ =>
      Keeps.bind' ht (Keeps.liftE' hr _) fun _ => Keeps.bind' ht (selParam_keeps _ _) fun _ =>
      setMask_keeps _
  · exact Keeps.bind' ht (Keeps.liftE' hr _) fun _ => Keeps.bind' ht (selParam_keeps _ _) fun _ =>
      Keeps.bind' ht (Keeps.liftE' hr _) fun _ => setMask_keeps _
  · exact Keeps.bind' ht (Keeps.liftE' hr _) fun _ => Keeps.bind' ht (selParam_keeps _ _) fun _ =>
      Keeps.bind' ht (Keeps.liftE' hr _) fun _ => setMask_keeps _
  · refine Keeps.bind' ht (Keeps.liftE' hr _) fun _ => Keeps.bind' ht (selParam_keeps _ _) fun _ =>
      Keeps.bind' ht (Keeps.liftE' hr _) fun _ => Keeps.bind' ht (selParam_keeps _ _) fun _ =>
      Keeps.ite' ?_ (Keeps.raise' hr _)
    exact Keeps.bind' ht (Keeps.get' hr) fun _ =>
        Keeps.bind' ht (setMask_keeps _) fun _ => hrng _
  · exact Keeps.pure' hr _
  · split
    · exact Keeps.raise' hr _
    · exact Keeps.bind' ht (selParam_keeps _ _) fun _ => Keeps.bind' ht (selParam_keeps _ _) fun _ =>
        setMask_keeps _
  · split
    · exact Keeps.raise' hr _
    · exact Keeps.bind' ht (selParam_keeps _ _) fun _ => Keeps.bind' ht (selParam_keeps _ _) fun _ =>
        setMask_keeps _
  · refine Keeps.bind' ht (hrng _) fun _ => ?_
    split
    · exact setMask_keeps _
    · exact Keeps.raise' hr _

theorem selSelect_apply (env : SelEnv F G) (half ninety : F) (pb : Bool) (n : Nat) (s : SelSt F G) :
    selSelect env half ninety pb n s =
      match (if s.sel.isSampled then .ok () s else selDraw env half ninety pb n s) with
      | .error e t => .error e t
      | .ok _ t => match t.sel.selection with
        | none => .error .type t
        | some _ => .ok () { t with sel := { t.sel with isSampled := true } } := by
  unfold selSelect
  cases hs : s.sel.isSampled
  · simp only [bind_apply, get_apply, hs, Bool.not_false, if_true, Bool.false_eq_true, if_false]
    cases selDraw env half ninety pb n s with
    | ok u t => simp only []; cases h : t.sel.selection <;> simp [h]
    | error e t => rfl
  · simp only [bind_apply, get_apply, hs, Bool.not_true, if_true, Bool.false_eq_true, if_false]
    cases h : s.sel.selection <;> simp [h]
end

/-! ### masks -/

@[simp] theorem length_andMask (a b : List Bool) :
    (andMask a b).length = min a.length b.length := by simp [andMask]

@[simp] theorem length_orMask (a b : List Bool) :
    (orMask a b).length = min a.length b.length := by simp [orMask]

section
variable [LE F] [DecidableLE F]
@[simp] theorem length_geMask (vs : List F) (b : F) : (geMask vs b).length = vs.length := by
  simp [geMask]
@[simp] theorem length_leMask (vs : List F) (b : F) : (leMask vs b).length = vs.length := by
  simp [leMask]
end

/-! ### Bernoulli loops -/

theorem length_bernMany (env : SelEnv F G) (ps : List F) (g : G) :
    (bernMany env ps g).1.length = ps.length := by
  induction ps generalizing g with
  | nil => rfl
  | cons p ps ih => simp [bernMany, ih]

theorem bernLoop_eq (env : SelEnv F G) (p : F) (n k : Nat) (pre : List Bool) (g : G)
    (hk : pre.length = k) :
    bernLoop env p ((List.range n).map (k + ·)) (pre ++ List.replicate n false) g =
      (pre ++ (bernMany env (List.replicate n p) g).1,
        (bernMany env (List.replicate n p) g).2) := by
  induction n generalizing k pre g with
  | zero => simp [bernLoop, bernMany]
  | succ n ih =>
    rw [List.range_succ_eq_map]
    simp only [List.map_cons, Nat.add_zero, List.replicate_succ, bernLoop, bernMany]
    have hset : ∀ b : Bool, (if b = true then (pre ++ false :: List.replicate n false).set k true
        else pre ++ false :: List.replicate n false) = (pre ++ [b]) ++ List.replicate n false := by
      intro b
      cases b with
      | true =>
        rw [if_pos rfl, List.set_append_right _ _ (by omega)]
        simp [hk]
      | false => simp
    rw [hset]
    have hmap : List.map (fun x => k + x) (List.map Nat.succ (List.range n)) =
        (List.range n).map (fun x => (k + 1) + x) := by
      rw [List.map_map]; apply List.map_congr_left; intro a _; simp; omega
    rw [hmap, ih (k + 1) (pre ++ [(env.bern p g).1]) _ (by simp [hk])]
    simp

/-! ### counting -/

theorem countTrue_cons (b : Bool) (m : List Bool) :
    countTrue (b :: m) = (if b then 1 else 0) + countTrue m := by
  cases b <;> simp [countTrue, Nat.add_comm]

theorem countTrue_add_not (m : List Bool) :
    countTrue m + countTrue (notMask m) = m.length := by
  induction m with
  | nil => rfl
  | cons b m ih =>
    have : notMask (b :: m) = (!b) :: notMask m := rfl
    rw [this, countTrue_cons, countTrue_cons, List.length_cons]
    cases b <;> simp <;> omega

theorem length_whereFrom (k : Nat) (m : List Bool) :
    (whereFrom k m).length = countTrue m := by
  induction m generalizing k with
  | nil => rfl
  | cons b m ih => cases b <;> simp [whereFrom, countTrue_cons, ih]; omega

theorem mem_whereFrom (k i : Nat) (m : List Bool) :
    i ∈ whereFrom k m ↔ k ≤ i ∧ m[i - k]? = some true := by
  induction m generalizing k with
  | nil => simp [whereFrom]
  | cons b m ih =>
    have key : i ∈ whereFrom (k + 1) m ↔ k < i ∧ (b :: m)[i - k]? = some true := by
      rw [ih]
      by_cases h : k + 1 ≤ i
      · have : i - k = (i - (k + 1)) + 1 := by omega
        rw [this]; simp only [List.getElem?_cons_succ]; constructor <;> intro hh <;> exact ⟨by omega, hh.2⟩
      · constructor <;> intro hh <;> omega
    cases b with
    | true =>
      simp only [whereFrom, if_true, List.mem_cons, key]
      constructor
      · rintro (rfl | h)
        · simp
        · exact ⟨by omega, h.2⟩
      · rintro ⟨h1, h2⟩
        by_cases h : i = k
        · exact Or.inl h
        · exact Or.inr ⟨by omega, h2⟩
    | false =>
      simp only [whereFrom, Bool.false_eq_true, if_false, key]
      constructor
      · rintro ⟨h1, h2⟩; exact ⟨by omega, h2⟩
      · rintro ⟨h1, h2⟩
        by_cases h : i = k
        · subst h; simp at h2
        · exact ⟨by omega, h2⟩

theorem pairwise_whereFrom (k : Nat) (m : List Bool) :
    (whereFrom k m).Pairwise (· < ·) := by
  induction m generalizing k with
  | nil => simp [whereFrom]
  | cons b m ih =>
    cases b with
    | true =>
      simp only [whereFrom, if_true, List.pairwise_cons]
      refine ⟨?_, ih _⟩
      intro a ha
      have := ((mem_whereFrom _ _ _).1 ha).1
      omega
    | false => simpa [whereFrom] using ih (k + 1)

/-! ### logical_and -/

theorem logicalAnd_of_length {a b : List Bool} (h : a.length = b.length) :
    logicalAnd a b = .ok (List.zipWith (· && ·) a b) := by simp [logicalAnd, h]

end Popsynth
