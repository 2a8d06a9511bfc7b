import Verif.Model.Distance
import Verif.Lemmas.Param
import Verif.Lemmas.Sampler

/-! Helper lemmas for distances and normalization (C27, C28, C45, C46). -/

set_option autoImplicit false
set_option linter.unusedSectionVars false

namespace Popsynth
variable {F G : Type}

/-- The value a read of `n` gives, if any. -/
def rd (decl : String → ParamDecl F) (n : String) (o : Obj F) : Option F :=
  ((o.storage.get? n).join).or (decl n).default

/-- All readings agree. -/
def SameRd (decl : String → ParamDecl F) (o o' : Obj F) : Prop :=
  ∀ n, rd decl n o' = rd decl n o

/-- Only flagged parameters are recorded as normalization parameter. -/
def NormOk (decl : String → ParamDecl F) (o : Obj F) : Prop :=
  ∀ n, o.norm = some n → (decl n).isNorm = true

/-- The relation kept by reading parameters. -/
structure RdRel (decl : String → ParamDecl F) (o o' : Obj F) : Prop where
  same : SameRd decl o o'
  normOk : NormOk decl o → NormOk decl o'
  some : o.norm.isSome → o'.norm.isSome
  keys : ∀ n, (o.storage.get? n).isSome → (o'.storage.get? n).isSome

namespace RdRel
variable {decl : String → ParamDecl F}

theorem refl (o : Obj F) : RdRel decl o o := ⟨fun _ => rfl, id, id, fun _ => id⟩

theorem trans {a b c : Obj F} (h : RdRel decl a b) (h' : RdRel decl b c) : RdRel decl a c :=
  ⟨fun n => (h'.same n).trans (h.same n), fun x => h'.normOk (h.normOk x),
    fun x => h'.some (h.some x), fun n x => h'.keys n (h.keys n x)⟩

end RdRel

theorem outcome_paramGet_rd (decl : String → ParamDecl F) (n : String) (o : Obj F) :
    outcome (paramGet (decl n) n o) =
      match rd decl n o with
      | some v => .ok v
      | none => .error .assertion := outcome_paramGet _ _ _

theorem paramGet_rel (decl : String → ParamDecl F) (n : String) (o : Obj F) :
    RdRel decl o (endState (paramGet (decl n) n o)) := by
  constructor
  · intro m
    unfold rd
    rw [storage_after_get]
    by_cases h : n = m ∧ (o.storage.get? m).join = none
    · rw [if_pos h, h.2, h.1]
      cases (decl m).default <;> rfl
    · rw [if_neg h]
  · intro h m hm
    rw [paramGet_eq] at hm
    have key : (touchNorm (decl n) n o).norm = some m → (decl m).isNorm = true := by
      unfold touchNorm
      split
      · rename_i hn; intro e; simp at e; subst e; exact hn
      · exact h m
    revert hm
    cases (o.storage.get? n).join with
    | some v => exact key
    | none => cases (decl n).default <;> exact key
  · intro h
    rw [paramGet_eq]
    have key : (touchNorm (decl n) n o).norm.isSome := by
      unfold touchNorm; split
      · rfl
      · exact h
    cases (o.storage.get? n).join with
    | some v => exact key
    | none => cases (decl n).default <;> exact key
  · intro m hm
    rw [storage_after_get]
    split
    · rfl
    · exact hm

/-- What a run of reads returns depends on the readings only. -/
def rdAll (decl : String → ParamDecl F) : List String → Obj F → Except Err (List F)
  | [], _ => .ok []
  | n :: ns, o => match rd decl n o with
    | none => .error .assertion
    | some v => match rdAll decl ns o with
      | .ok vs => .ok (v :: vs)
      | .error e => .error e

theorem rdAll_congr (decl : String → ParamDecl F) (ns : List String) {o o' : Obj F}
    (h : SameRd decl o o') : rdAll decl ns o' = rdAll decl ns o := by
  induction ns with
  | nil => rfl
  | cons n ns ih => simp only [rdAll, h n, ih]

theorem readAll_keeps (decl : String → ParamDecl F) (ns : List String) :
    Keeps (RdRel decl) (readAll decl ns) := by
  induction ns with
  | nil => exact Keeps.pure' RdRel.refl _
  | cons n ns ih =>
    refine Keeps.bind' (fun _ _ _ => RdRel.trans) (paramGet_rel decl n) fun v => ?_
    exact Keeps.bind' (fun _ _ _ => RdRel.trans) ih fun vs => Keeps.pure' RdRel.refl _

theorem readAll_outcome (decl : String → ParamDecl F) (ns : List String) (o : Obj F) :
    outcome (readAll decl ns o) = rdAll decl ns o := by
  induction ns generalizing o with
  | nil => rfl
  | cons n ns ih =>
    have h1 := outcome_paramGet_rd decl n o
    have h2 := paramGet_rel decl n o
    simp only [readAll, rdAll, bind_apply]
    cases h : paramGet (decl n) n o with
    | error e o' =>
      rw [h] at h1; simp only [outcome] at h1
      cases hr : rd decl n o with
      | none => rw [hr] at h1; simp only at h1; cases h1; rfl
      | some v => rw [hr] at h1; simp only at h1; cases h1
    | ok v o' =>
      rw [h] at h1 h2; simp only [outcome, endState] at h1 h2
      cases hr : rd decl n o with
      | none => rw [hr] at h1; simp only at h1; cases h1
      | some v' =>
        rw [hr] at h1; simp only at h1; cases h1
        have h3 := ih o'
        rw [rdAll_congr decl ns h2.same] at h3
        simp only [← h3]
        cases readAll decl ns o' <;> rfl

theorem quad_keeps {σ : Type} {R : σ → σ → Prop} (hr : ∀ s, R s s)
    (ht : ∀ a b c, R a b → R b c → R a c) (q : QuadStrat F) {f : F → Py σ F}
    (hf : ∀ x, Keeps R (f x)) : Keeps R (q.run f) := by
  induction q with
  | done v => exact Keeps.pure' hr _
  | query x k ih => exact Keeps.bind' ht (hf x) fun y => ih y

theorem SpClass.at_keeps (c : SpClass F) (r : F) : Keeps (RdRel c.decl) (c.code.at' r) :=
  Keeps.bind' (fun _ _ _ => RdRel.trans) (readAll_keeps _ _) fun _ => Keeps.pure' RdRel.refl _

theorem SpClass.onArr_keeps (c : SpClass F) (rs : List F) :
    Keeps (RdRel c.decl) (c.code.onArr rs) :=
  Keeps.bind' (fun _ _ _ => RdRel.trans) (readAll_keeps _ _) fun _ => Keeps.pure' RdRel.refl _

theorem normAt_keeps (env : DistEnv F G) (c : SpClass F) (i : Option F) (r : F) :
    Keeps (RdRel c.decl) (normAt env c.code i r) :=
  Keeps.bind' (fun _ _ _ => RdRel.trans) (c.at_keeps r) fun _ => Keeps.pure' RdRel.refl _

theorem normArr_keeps (env : DistEnv F G) (c : SpClass F) (i : Option F) (rs : List F) :
    Keeps (RdRel c.decl) (normArr env c.code i rs) :=
  Keeps.bind' (fun _ _ _ => RdRel.trans) (c.onArr_keeps rs) fun _ => Keeps.pure' RdRel.refl _

theorem onParams_keeps {α : Type} {R : Obj F → Obj F → Prop} {m : Py (Obj F) α} (h : Keeps R m) :
    Keeps (fun s s' : SpSt F G => R s.sp.params s'.sp.params) (onParams m) := by
  intro s
  have := h s.sp.params
  unfold onParams
  cases hm : m s.sp.params <;> rw [hm] at this <;> exact this

theorem drawUniform_params (env : DistEnv F G) (hi : F) (s : SpSt F G) :
    (endState (drawUniform env hi s)).sp = s.sp := by
  unfold drawUniform
  cases env.uniform hi s.rng with
  | mk a g => cases a <;> rfl

theorem drawUniform_keeps {R : Obj F → Obj F → Prop} (hr : ∀ o, R o o) (env : DistEnv F G) (hi : F) :
    Keeps (fun s s' : SpSt F G => R s.sp.params s'.sp.params) (drawUniform env hi) := by
  intro s; simp only [drawUniform_params]; exact hr _

theorem rejectOne_keeps {R : Obj F → Obj F → Prop} (hr : ∀ o, R o o)
    (ht : ∀ a b c, R a b → R b c → R a c) (env : DistEnv F G) (ymax : F)
    {xmax : Py (Obj F) F} {f : F → Py (Obj F) F} (hx : Keeps R xmax) (hf : ∀ r, Keeps R (f r))
    (k : Nat) :
    Keeps (fun s s' : SpSt F G => R s.sp.params s'.sp.params) (rejectOne env ymax xmax f k) := by
  induction k with
  | zero => exact Keeps.raise' (R := fun s s' : SpSt F G => R s.sp.params s'.sp.params) (fun s => hr _) _
  | succ k ih =>
    have ht' : ∀ a b c : SpSt F G, R a.sp.params b.sp.params → R b.sp.params c.sp.params →
      R a.sp.params c.sp.params := fun _ _ _ => ht _ _ _
    refine Keeps.bind' ht' (drawUniform_keeps hr env ymax) fun y => ?_
    refine Keeps.bind' ht' (onParams_keeps hx) fun hi => ?_
    refine Keeps.bind' ht' (drawUniform_keeps hr env hi) fun r => ?_
    refine Keeps.bind' ht' (onParams_keeps (hf r)) fun d => ?_
    exact Keeps.ite' (Keeps.pure' (R := fun s s' : SpSt F G => R s.sp.params s'.sp.params) (fun s => hr _) _) ih

theorem rejectMany_keeps {R : Obj F → Obj F → Prop} (hr : ∀ o, R o o)
    (ht : ∀ a b c, R a b → R b c → R a c) (env : DistEnv F G) (ymax : F)
    {xmax : Py (Obj F) F} {f : F → Py (Obj F) F} (hx : Keeps R xmax) (hf : ∀ r, Keeps R (f r))
    (n : Nat) :
    Keeps (fun s s' : SpSt F G => R s.sp.params s'.sp.params) (rejectMany env ymax xmax f n) := by
  have ht' : ∀ a b c : SpSt F G, R a.sp.params b.sp.params → R b.sp.params c.sp.params →
    R a.sp.params c.sp.params := fun _ _ _ => ht _ _ _
  induction n with
  | zero => exact Keeps.pure' (R := fun s s' : SpSt F G => R s.sp.params s'.sp.params) (fun s => hr _) _
  | succ n ih =>
    refine Keeps.bind' ht' (rejectOne_keeps hr ht env ymax hx hf _) fun r => ?_
    exact Keeps.bind' ht' ih fun rs => Keeps.pure' (R := fun s s' : SpSt F G => R s.sp.params s'.sp.params) (fun s => hr _) _

section
variable [OfNat F 0] [OfNat F 1]

theorem readRMax_keeps (env : DistEnv F G) {decl : String → ParamDecl F}
    (h : decl "r_max" = declRMax env) : Keeps (RdRel decl) (readRMax env) := by
  intro o
  have := paramGet_rel decl "r_max" o
  rw [h] at this
  exact this

theorem drawRadii_keeps (env : DistEnv F G) (c : SpClass F) (hrm : c.decl "r_max" = declRMax env)
    (sp : Bool) (i : Option F) (ymax : F) (size : Nat) :
    Keeps (fun s s' : SpSt F G => RdRel c.decl s.sp.params s'.sp.params)
      (drawRadii env c.code sp i ymax size) := by
  unfold drawRadii
  refine Keeps.ite' (rejectMany_keeps RdRel.refl (fun _ _ _ => RdRel.trans) _ _
    (readRMax_keeps env hrm) (normAt_keeps env c i) _) ?_
  refine Keeps.bind' (fun _ _ _ => RdRel.trans) (onParams_keeps (readRMax_keeps env hrm)) fun rm => ?_
  exact rejectMany_keeps RdRel.refl (fun _ _ _ => RdRel.trans) _ _
    (Keeps.pure' RdRel.refl _) (c.at_keeps) _

theorem pushNorm_ok {old old' : Option (Option F)} {o o' : Obj F}
    (h : pushNorm old o = .ok old' o') :
    (o.norm = none ∧ old' = old ∧ o' = o) ∨
    ∃ n v, o.norm = some n ∧ o.storage.get? n = some v ∧ old' = some v ∧
      o' = { o with storage := o.storage.set n (some 1) } := by
  unfold pushNorm getNorm setNorm at h
  cases hn : o.norm with
  | none => rw [hn] at h; simp only at h; cases h; exact Or.inl ⟨rfl, rfl, rfl⟩
  | some n =>
    rw [hn] at h; simp only at h
    cases hg : o.storage.get? n with
    | none => rw [hg] at h; simp at h
    | some v =>
      rw [hg] at h; simp only [hn] at h
      cases h
      exact Or.inr ⟨n, v, rfl, hg, rfl, rfl⟩

/-- Everything between setting the normalization to one and setting it back. -/
theorem bracket {decl : String → ParamDecl F}
    (huniq : ∀ a b, (decl a).isNorm = true → (decl b).isNorm = true → a = b)
    {old old' : Option (Option F)} {o o1 o2 o3 : Obj F} (hok : NormOk decl o)
    (hcarry : old.isSome → o.norm.isSome)
    (h1 : pushNorm old o = .ok old' o1) (h2 : RdRel decl o1 o2)
    (h3 : popNorm old' o2 = .ok () o3) :
    RdRel decl o o3 ∧ (old'.isSome → o3.norm.isSome) := by
  rcases pushNorm_ok h1 with ⟨hn, rfl, rfl⟩ | ⟨n, v, hn, hg, rfl, rfl⟩
  · unfold popNorm at h3
    cases hn2 : o2.norm with
    | none => rw [hn2] at h3; simp only at h3; cases h3
              refine ⟨h2, fun h => ?_⟩
              have := hcarry h; rw [hn] at this; cases this
    | some m =>
      rw [hn2] at h3; simp only at h3
      cases hold : old' with
      | none => rw [hold] at h3; simp at h3
      | some v => rw [hold] at hcarry; have := hcarry rfl; rw [hn] at this; cases this
  · have hok1 : NormOk decl { o with storage := o.storage.set n (some 1) } := hok
    have hok2 := h2.normOk hok1
    have hs2 : o2.norm.isSome := h2.some (by rw [show _ = some n from hn]; rfl)
    obtain ⟨m, hm⟩ := Option.isSome_iff_exists.1 hs2
    have : m = n := huniq m n (hok2 m hm) (hok n hn)
    subst this
    unfold popNorm setNorm at h3
    rw [hm] at h3; simp only [hm] at h3
    cases h3
    refine ⟨⟨fun k => ?_, fun _ k hk => ?_, fun _ => rfl, fun k hk => ?_⟩, fun _ => rfl⟩
    · by_cases hk : m = k
      · subst hk; simp [rd, hg]
      · have := h2.same k
        simp only [rd, Dict.get?_set, hk, if_false] at this ⊢
        exact this
    · exact hok2 k (hm.trans hk)
    · rw [Dict.get?_set]; split
      · rfl
      · exact h2.keys k (by simp only [Dict.get?_set]; split <;> simp_all)

theorem normBlock_rel (env : DistEnv F G) (c : SpClass F) (hrm : c.decl "r_max" = declRMax env)
    (huniq : ∀ a b, (c.decl a).isNorm = true → (c.decl b).isNorm = true → a = b)
    (normalize : Bool) {o o' : Obj F} {r : Option F × Option (Option F)} (hok : NormOk c.decl o)
    (h : normBlock env c.code normalize o = .ok r o') :
    RdRel c.decl o o' ∧ (r.2.isSome → o'.norm.isSome) := by
  unfold normBlock at h
  split at h
  · simp only [bind_ok_iff] at h
    obtain ⟨old, o1, h1, rm, o2, h2, i, o3, h3, u, o4, h4, h5⟩ := h
    cases h5
    have k2 := readRMax_keeps env hrm o1
    rw [h2] at k2
    have k3 := quad_keeps RdRel.refl (fun _ _ _ => RdRel.trans) (env.quad rm) (c.at_keeps) o2
    rw [h3] at k3
    exact bracket huniq hok (by simp) h1 (k2.trans k3) h4
  · cases h; exact ⟨RdRel.refl _, by simp⟩

omit [OfNat F 0] [OfNat F 1] in
theorem onParams_ok {α : Type} {m : Py (Obj F) α} {s s' : SpSt F G} {a : α}
    (h : onParams m s = .ok a s') : ∃ o, m s.sp.params = .ok a o ∧
      s' = { s with sp := { s.sp with params := o } } := by
  unfold onParams at h
  cases hm : m s.sp.params with
  | ok b o => rw [hm] at h; simp only at h; cases h; exact ⟨o, rfl, rfl⟩
  | error e o => rw [hm] at h; simp at h

theorem drawDistance_rel (env : DistEnv F G) (c : SpClass F) (hrm : c.decl "r_max" = declRMax env)
    (huniq : ∀ a b, (c.decl a).isNorm = true → (c.decl b).isNorm = true → a = b)
    (sp normalize : Bool) (size : Nat) {s s' : SpSt F G} (hok : NormOk c.decl s.sp.params)
    (h : drawDistance env c.code sp size normalize s = .ok () s') :
    RdRel c.decl s.sp.params s'.sp.params := by
  unfold drawDistance at h
  simp only [bind_ok_iff] at h
  obtain ⟨⟨i, old⟩, s1, h1, h⟩ := h
  simp only [bind_ok_iff] at h
  obtain ⟨rm, s2, h2, ys, s3, h3, rs, s4, h4, _, s5, h5, old', s6, h6, p, s7, h7, _, s8, h8, h9⟩ := h
  obtain ⟨o1, e1, rfl⟩ := onParams_ok h1
  obtain ⟨k1, k1'⟩ := normBlock_rel env c hrm huniq normalize hok e1
  have k2 := onParams_keeps (G := G) (readRMax_keeps env hrm)
    { s with sp := { s.sp with params := o1 } }
  rw [h2] at k2
  have k3 := onParams_keeps (G := G) (normArr_keeps env c i (env.grid rm)) s2
  rw [h3] at k3
  have k4 := drawRadii_keeps env c hrm sp i (env.npMax ys) size s3
  rw [h4] at k4
  have kk : RdRel c.decl o1 s4.sp.params := (RdRel.trans k2 k3).trans k4
  simp only [modify_apply] at h5; cases h5
  obtain ⟨o6, e6, rfl⟩ := onParams_ok h6
  obtain ⟨o7, e7, rfl⟩ := onParams_ok h7
  simp only [modify_apply] at h8; cases h8
  obtain ⟨o9, e9, rfl⟩ := onParams_ok h9
  have k7 := normArr_keeps env c i rs o6
  rw [e7] at k7
  have hb := bracket huniq (kk.normOk (k1.normOk hok)) (fun x => kk.some (k1' x)) e6 k7 e9
  exact (k1.trans kk).trans hb.1

end

end Popsynth

namespace Popsynth
variable {F G : Type}

/-! ### Values of class code -/

theorem SpClass.at_outcome (c : SpClass F) (r : F) (o : Obj F) :
    outcome (c.code.at' r o) = (rdAll c.decl c.reads o).map fun vs => c.dens vs r := by
  rw [← readAll_outcome]
  simp only [SpClass.code, bind_apply]
  cases readAll c.decl c.reads o <;> rfl

theorem SpClass.onArr_outcome (c : SpClass F) (rs : List F) (o : Obj F) :
    outcome (c.code.onArr rs o) = (rdAll c.decl c.reads o).map fun vs => rs.map (c.dens vs) := by
  rw [← readAll_outcome]
  simp only [SpClass.code, bind_apply]
  cases readAll c.decl c.reads o <;> rfl

/-! ### Rejection sampling -/

/-- `v` is a value some draw from `[0, h]` can give. -/
def UniVal (env : DistEnv F G) (h v : F) : Prop := ∃ g g', env.uniform h g = (.ok v, g')

theorem drawUniform_ok {env : DistEnv F G} {h v : F} {s s' : SpSt F G}
    (e : drawUniform env h s = .ok v s') : UniVal env h v ∧ s'.sp = s.sp := by
  unfold drawUniform at e
  cases hu : env.uniform h s.rng with
  | mk a g =>
    rw [hu] at e
    cases a with
    | error x => simp at e
    | ok w => simp only at e; cases e; exact ⟨⟨_, _, hu⟩, rfl⟩

theorem rejectOne_spec {env : DistEnv F G} {ymax rm : F} {xmax : Py (Obj F) F}
    {f : F → Py (Obj F) F} {g : F → F} {P : Obj F → Prop}
    (hx : ∀ o a o', P o → xmax o = .ok a o' → a = rm ∧ P o')
    (hf : ∀ o r d o', P o → f r o = .ok d o' → d = g r ∧ P o')
    {k : Nat} {s s' : SpSt F G} {r : F} (hP : P s.sp.params)
    (h : rejectOne env ymax xmax f k s = .ok r s') :
    P s'.sp.params ∧ UniVal env rm r ∧ ∃ y, UniVal env ymax y ∧ env.lt y (g r) = true := by
  induction k generalizing s with
  | zero => simp [rejectOne] at h
  | succ k ih =>
    simp only [rejectOne, bind_ok_iff] at h
    obtain ⟨y, s1, h1, hi, s2, h2, r', s3, h3, d, s4, h4, h5⟩ := h
    obtain ⟨u1, e1⟩ := drawUniform_ok h1
    obtain ⟨o2, e2, rfl⟩ := onParams_ok h2
    obtain ⟨u3, e3⟩ := drawUniform_ok h3
    obtain ⟨o4, e4, rfl⟩ := onParams_ok h4
    rw [e1] at e2
    obtain ⟨rfl, p2⟩ := hx _ _ _ hP e2
    rw [e3] at e4
    obtain ⟨rfl, p4⟩ := hf _ _ _ _ p2 e4
    split at h5
    · rename_i hlt
      cases h5
      exact ⟨p4, u3, y, u1, hlt⟩
    · exact ih p4 h5

theorem rejectMany_spec {env : DistEnv F G} {ymax rm : F} {xmax : Py (Obj F) F}
    {f : F → Py (Obj F) F} {g : F → F} {P : Obj F → Prop}
    (hx : ∀ o a o', P o → xmax o = .ok a o' → a = rm ∧ P o')
    (hf : ∀ o r d o', P o → f r o = .ok d o' → d = g r ∧ P o')
    {n : Nat} {s s' : SpSt F G} {rs : List F} (hP : P s.sp.params)
    (h : rejectMany env ymax xmax f n s = .ok rs s') :
    P s'.sp.params ∧ rs.length = n ∧
      ∀ r ∈ rs, UniVal env rm r ∧ ∃ y, UniVal env ymax y ∧ env.lt y (g r) = true := by
  induction n generalizing s rs with
  | zero => simp only [rejectMany] at h; cases h; exact ⟨hP, rfl, by simp⟩
  | succ n ih =>
    simp only [rejectMany, bind_ok_iff] at h
    obtain ⟨r, s1, h1, rs', s2, h2, h3⟩ := h
    cases h3
    obtain ⟨p1, q1⟩ := rejectOne_spec hx hf hP h1
    obtain ⟨p2, l2, q2⟩ := ih p1 h2
    refine ⟨p2, by simp [l2], ?_⟩
    intro x hx'
    rcases List.mem_cons.1 hx' with rfl | hx'
    · exact q1
    · exact q2 x hx'

/-! ### `r_max` once read stays put -/

/-- `r_max` is stored with value `rm`. -/
def RMSet (rm : F) (o : Obj F) : Prop := o.storage.get? "r_max" = some (some rm)

theorem paramGet_rmset (decl : String → ParamDecl F) (n : String) {rm : F} {o : Obj F}
    (h : RMSet rm o) : RMSet rm (endState (paramGet (decl n) n o)) := by
  unfold RMSet at *
  rw [storage_after_get]
  split
  · rename_i hc; rw [h] at hc; simp [Option.join] at hc
  · exact h

/-- A relation for `Keeps`: whatever `r_max` is stored stays stored. -/
def KeepsRM (o o' : Obj F) : Prop := ∀ rm, RMSet rm o → RMSet rm o'

theorem readAll_keepsRM (decl : String → ParamDecl F) (ns : List String) :
    Keeps KeepsRM (readAll decl ns) := by
  induction ns with
  | nil => exact Keeps.pure' (fun _ _ h => h) _
  | cons n ns ih =>
    have ht : ∀ a b c : Obj F, KeepsRM a b → KeepsRM b c → KeepsRM a c :=
      fun _ _ _ h h' rm x => h' rm (h rm x)
    refine Keeps.bind' ht (fun o rm h => paramGet_rmset decl n h) fun v => ?_
    exact Keeps.bind' ht ih fun vs => Keeps.pure' (fun _ _ h => h) _

theorem SpClass.at_keepsRM (c : SpClass F) (r : F) : Keeps KeepsRM (c.code.at' r) :=
  Keeps.bind' (fun _ _ _ h h' rm x => h' rm (h rm x)) (readAll_keepsRM _ _)
    fun _ => Keeps.pure' (fun _ _ h => h) _

theorem SpClass.onArr_keepsRM (c : SpClass F) (rs : List F) : Keeps KeepsRM (c.code.onArr rs) :=
  Keeps.bind' (fun _ _ _ h h' rm x => h' rm (h rm x)) (readAll_keepsRM _ _)
    fun _ => Keeps.pure' (fun _ _ h => h) _

section
variable [OfNat F 0] [OfNat F 1]

theorem readRMax_settled (env : DistEnv F G) {rm : F} {o : Obj F} (h : RMSet rm o) :
    readRMax env o = .ok rm o := by
  unfold readRMax
  rw [paramGet_eq, h]
  simp [Option.join, touchNorm, declRMax]

theorem readRMax_sets (env : DistEnv F G) {rm : F} {o o' : Obj F}
    (h : readRMax env o = .ok rm o') : RMSet rm o' := by
  unfold readRMax at h
  rw [paramGet_eq] at h
  unfold RMSet
  cases hj : (o.storage.get? "r_max").join with
  | some v =>
    rw [hj] at h; simp only at h; cases h
    rw [touchNorm_storage]
    cases hg : o.storage.get? "r_max" with
    | none => rw [hg] at hj; simp [Option.join] at hj
    | some x => rw [hg] at hj; simp [Option.join] at hj; rw [hj]
  | none =>
    rw [hj] at h; simp only [declRMax] at h; cases h
    simp

theorem normAt_none (env : DistEnv F G) (code : DensityCode F) : normAt env code none = code.at' := by
  funext r
  exact bind_pure (code.at' r)

theorem rejectOne_paths (env : DistEnv F G) (code : DensityCode F)
    (hc : ∀ r, Keeps KeepsRM (code.at' r)) (ymax : F) {rm : F} (k : Nat) {s : SpSt F G}
    (h : RMSet rm s.sp.params) :
    rejectOne env ymax (readRMax env) code.at' k s = rejectOne env ymax (pure rm) code.at' k s ∧
    RMSet rm (endState (rejectOne env ymax (pure rm) code.at' k s)).sp.params := by
  induction k generalizing s with
  | zero => exact ⟨rfl, h⟩
  | succ k ih =>
    simp only [rejectOne, bind_apply]
    have hu := drawUniform_params env ymax s
    cases h1 : drawUniform env ymax s with
    | error e s1 => rw [h1] at hu; simp only [endState] at hu; simp only [endState, hu]; exact ⟨trivial, h⟩
    | ok y s1 =>
      rw [h1] at hu; simp only [endState] at hu
      have h' : RMSet rm s1.sp.params := by rw [hu]; exact h
      have e1 : onParams (readRMax env) s1 = .ok rm s1 := by
        unfold onParams; rw [readRMax_settled env h']
      have e2 : onParams (pure rm : Py (Obj F) F) s1 = .ok rm s1 := rfl
      simp only [e1, e2]
      have hu2 := drawUniform_params env rm s1
      cases h2 : drawUniform env rm s1 with
      | error e s2 => rw [h2] at hu2; simp only [endState] at hu2; simp only [endState, hu2]; exact ⟨trivial, h'⟩
      | ok r s2 =>
        rw [h2] at hu2; simp only [endState] at hu2
        have h'' : RMSet rm s2.sp.params := by rw [hu2]; exact h'
        have hk := onParams_keeps (G := G) (hc r) s2 rm h''
        simp only
        cases h3 : onParams (G := G) (code.at' r) s2 with
        | error e s3 => rw [h3] at hk; exact ⟨rfl, hk⟩
        | ok d s3 =>
          rw [h3] at hk
          simp only
          split
          · exact ⟨rfl, hk⟩
          · exact ih hk

theorem rejectMany_paths (env : DistEnv F G) (code : DensityCode F)
    (hc : ∀ r, Keeps KeepsRM (code.at' r)) (ymax : F) {rm : F} (n : Nat) {s : SpSt F G}
    (h : RMSet rm s.sp.params) :
    rejectMany env ymax (readRMax env) code.at' n s = rejectMany env ymax (pure rm) code.at' n s := by
  induction n generalizing s with
  | zero => rfl
  | succ n ih =>
    obtain ⟨e, k⟩ := rejectOne_paths env code hc ymax env.budget h
    simp only [rejectMany, bind_apply, e]
    cases h1 : rejectOne env ymax (pure rm) code.at' env.budget s with
    | error x s1 => rfl
    | ok r s1 =>
      rw [h1] at k
      have k' : RMSet rm s1.sp.params := k
      simp only [ih k']

theorem drawRadii_paths (env : DistEnv F G) (code : DensityCode F)
    (hc : ∀ r, Keeps KeepsRM (code.at' r)) (ymax : F) {rm : F} (n : Nat) {s : SpSt F G}
    (h : RMSet rm s.sp.params) :
    drawRadii env code true none ymax n s = drawRadii env code false none ymax n s := by
  have e1 : onParams (readRMax env) s = .ok rm s := by
    unfold onParams; rw [readRMax_settled env h]
  simp only [drawRadii, normAt_none, if_true, Bool.false_eq_true, if_false]
  rw [bind_of_ok e1]
  exact rejectMany_paths env code hc ymax n h

theorem drawDistance_paths (env : DistEnv F G) (code : DensityCode F)
    (hc : ∀ r, Keeps KeepsRM (code.at' r)) (hca : ∀ rs, Keeps KeepsRM (code.onArr rs))
    (size : Nat) (s : SpSt F G) :
    drawDistance env code true size false s = drawDistance env code false size false s := by
  have hn : onParams (G := G) (normBlock env code false) s = .ok (none, none) s := rfl
  unfold drawDistance
  rw [bind_of_ok hn, bind_of_ok hn]
  dsimp only
  rw [bind_apply, bind_apply]
  cases h1 : onParams (readRMax env) s with
  | error e s1 => rfl
  | ok rm s1 =>
    obtain ⟨o1, e1, rfl⟩ := onParams_ok h1
    have k1 := readRMax_sets env e1
    dsimp only
    rw [bind_apply, bind_apply]
    have k2 := onParams_keeps (G := G) (R := KeepsRM) (m := normArr env code none (env.grid rm))
      (Keeps.bind' (fun _ _ _ h h' rm x => h' rm (h rm x)) (hca _)
        fun _ => Keeps.pure' (fun _ _ h => h) _)
      { s with sp := { s.sp with params := o1 } } rm k1
    cases h2 : onParams (G := G) (normArr env code none (env.grid rm))
      { s with sp := { s.sp with params := o1 } } with
    | error e s2 => rfl
    | ok ys s2 =>
      rw [h2] at k2
      dsimp only
      have k2' : RMSet rm s2.sp.params := k2
      rw [bind_apply, bind_apply, drawRadii_paths env code hc _ size k2']

end
end Popsynth
