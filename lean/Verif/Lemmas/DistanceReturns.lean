import Verif.Lemmas.Distance

/-!
# When `draw_distance` returns

Once reading the parameters works, everything in `draw_distance` apart from the
sampling loops succeeds.
-/

set_option autoImplicit false
set_option linter.unusedSectionVars false

namespace Popsynth
variable {F G : Type}

/-- The recorded normalization parameter has an entry in the storage. -/
def NormStored (o : Obj F) : Prop := ∀ n, o.norm = some n → (o.storage.get? n).isSome

theorem touchNorm_norm (d : ParamDecl F) (n : String) (o : Obj F) :
    (touchNorm d n o).norm = if d.isNorm then some n else o.norm := by
  unfold touchNorm; split <;> rfl

theorem paramGet_norm (d : ParamDecl F) (n : String) (o : Obj F) :
    (endState (paramGet d n o)).norm = if d.isNorm then some n else o.norm := by
  rw [paramGet_eq]
  cases (o.storage.get? n).join with
  | some v => exact touchNorm_norm d n o
  | none => cases d.default <;> exact touchNorm_norm d n o

theorem paramGet_normStored (d : ParamDecl F) (n : String) (o : Obj F) (h : NormStored o) :
    NormStored (endState (paramGet d n o)) := by
  intro m hm
  rw [paramGet_norm] at hm
  rw [storage_after_get]
  split
  · rfl
  · rename_i hc
    split at hm
    · cases hm
      rw [not_and] at hc
      have := hc rfl
      cases hg : o.storage.get? n with
      | none => rw [hg] at this; exact absurd rfl this
      | some v => rfl
    · exact h m hm

/-- The relation kept by reads, second part. -/
structure NormRel (reads : List String) (decl : String → ParamDecl F) (o o' : Obj F) : Prop where
  stored : NormStored o → NormStored o'
  same : (∀ n ∈ reads, (decl n).isNorm = false) → o'.norm = o.norm

theorem NormRel.refl {reads : List String} {decl : String → ParamDecl F} (o : Obj F) :
    NormRel reads decl o o := ⟨id, fun _ => rfl⟩

theorem NormRel.trans {reads : List String} {decl : String → ParamDecl F} {a b c : Obj F}
    (h : NormRel reads decl a b) (h' : NormRel reads decl b c) : NormRel reads decl a c :=
  ⟨fun x => h'.stored (h.stored x), fun x => (h'.same x).trans (h.same x)⟩

theorem paramGet_normRel (decl : String → ParamDecl F) (reads : List String) (n : String)
    (hn : n ∈ reads) : Keeps (NormRel reads decl) (paramGet (decl n) n) := by
  intro o
  refine ⟨paramGet_normStored _ _ _, fun h => ?_⟩
  rw [paramGet_norm, h n hn]; rfl

theorem readAll_normRel (decl : String → ParamDecl F) (reads ns : List String)
    (hn : ∀ n ∈ ns, n ∈ reads) : Keeps (NormRel reads decl) (readAll decl ns) := by
  induction ns with
  | nil => exact Keeps.pure' NormRel.refl _
  | cons n ns ih =>
    refine Keeps.bind' (fun _ _ _ => NormRel.trans)
      (paramGet_normRel decl reads n (hn n (by simp))) fun v => ?_
    exact Keeps.bind' (fun _ _ _ => NormRel.trans) (ih fun m hm => hn m (by simp [hm]))
      fun vs => Keeps.pure' NormRel.refl _

theorem SpClass.at_normRel (c : SpClass F) (r : F) :
    Keeps (NormRel c.reads c.decl) (c.code.at' r) :=
  Keeps.bind' (fun _ _ _ => NormRel.trans) (readAll_normRel _ _ _ fun _ h => h) fun _ =>
    Keeps.pure' NormRel.refl _

theorem SpClass.onArr_normRel (c : SpClass F) (rs : List F) :
    Keeps (NormRel c.reads c.decl) (c.code.onArr rs) :=
  Keeps.bind' (fun _ _ _ => NormRel.trans) (readAll_normRel _ _ _ fun _ h => h) fun _ =>
    Keeps.pure' NormRel.refl _

theorem normAt_normRel (env : DistEnv F G) (c : SpClass F) (i : Option F) (r : F) :
    Keeps (NormRel c.reads c.decl) (normAt env c.code i r) :=
  Keeps.bind' (fun _ _ _ => NormRel.trans) (c.at_normRel r) fun _ => Keeps.pure' NormRel.refl _

theorem normArr_normRel (env : DistEnv F G) (c : SpClass F) (i : Option F) (rs : List F) :
    Keeps (NormRel c.reads c.decl) (normArr env c.code i rs) :=
  Keeps.bind' (fun _ _ _ => NormRel.trans) (c.onArr_normRel rs) fun _ => Keeps.pure' NormRel.refl _

theorem readRMax_normRel [OfNat F 0] (env : DistEnv F G) (reads : List String)
    (decl : String → ParamDecl F) : Keeps (NormRel reads decl) (readRMax env) := by
  intro o
  refine ⟨paramGet_normStored _ _ _, fun _ => ?_⟩
  unfold readRMax
  rw [paramGet_norm]; rfl

/-- After reading a flagged parameter, a normalization parameter is recorded. -/
theorem readAll_touches (decl : String → ParamDecl F) (ns : List String) :
    ∀ (o o' : Obj F) (vs : List F), readAll decl ns o = .ok vs o' →
      ∀ n ∈ ns, (decl n).isNorm = true → o'.norm.isSome := by
  induction ns with
  | nil => intro o o' vs _ n hn; simp at hn
  | cons m ns ih =>
    intro o o' vs h n hn hf
    simp only [readAll, bind_ok_iff] at h
    obtain ⟨v, o1, h1, ws, o2, h2, h3⟩ := h
    cases h3
    rcases List.mem_cons.1 hn with rfl | hn
    · have k := readAll_keeps decl ns o1
      rw [h2] at k
      refine k.some ?_
      have := paramGet_norm (decl n) n o
      rw [h1, hf] at this
      show o1.norm.isSome
      rw [show o1.norm = some n from this]; rfl
    · exact ih o1 _ ws h2 n hn hf

theorem rdAll_ok_iff (decl : String → ParamDecl F) (ns : List String) (o : Obj F) :
    (∃ vs, rdAll decl ns o = .ok vs) ↔ ∀ n ∈ ns, (rd decl n o).isSome := by
  induction ns with
  | nil => exact ⟨fun _ n hn => by simp at hn, fun _ => ⟨[], rfl⟩⟩
  | cons m ns ih =>
    constructor
    · rintro ⟨vs, h⟩
      simp only [rdAll] at h
      cases hr : rd decl m o with
      | none => rw [hr] at h; simp at h
      | some v =>
        rw [hr] at h; simp only at h
        cases h2 : rdAll decl ns o with
        | error e => rw [h2] at h; simp at h
        | ok ws =>
          intro n hn
          rcases List.mem_cons.1 hn with rfl | hn
          · rw [hr]; rfl
          · exact ih.1 ⟨ws, h2⟩ n hn
    · intro h
      obtain ⟨v, hv⟩ := Option.isSome_iff_exists.1 (h m (by simp))
      obtain ⟨ws, hws⟩ := ih.2 fun n hn => h n (by simp [hn])
      exact ⟨v :: ws, by simp only [rdAll, hv, hws]⟩

/-- Evaluating the density of an array. -/
theorem normArr_returns (env : DistEnv F G) (c : SpClass F) (i : Option F) (rs : List F)
    {o : Obj F} {vs : List F} (h : rdAll c.decl c.reads o = .ok vs) :
    ∃ o', normArr env c.code i rs o =
        .ok (rs.map fun r => i.elim (c.dens vs r) fun x => env.div (c.dens vs r) x) o' ∧
      RdRel c.decl o o' ∧ NormRel c.reads c.decl o o' ∧
      (∀ n ∈ c.reads, (c.decl n).isNorm = true → o'.norm.isSome) := by
  have h1 := c.onArr_outcome rs o
  rw [h] at h1
  have h2 := ok_of_outcome (a := rs.map (c.dens vs)) h1
  have k1 := c.onArr_keeps rs o
  have k2 := c.onArr_normRel rs o
  refine ⟨endState (c.code.onArr rs o), ?_, k1, k2, ?_⟩
  · unfold normArr
    rw [bind_of_ok h2]
    cases i with
    | none => rfl
    | some x =>
      show EStateM.Result.ok _ _ = _
      simp [List.map_map, Function.comp_def]
  · intro n hn hf
    have h3 : outcome (readAll c.decl c.reads o) = .ok vs := by rw [readAll_outcome]; exact h
    have h4 := ok_of_outcome h3
    have h5 := readAll_touches _ _ _ _ _ h4 n hn hf
    have e : c.code.onArr rs o = .ok (rs.map (c.dens vs)) (endState (readAll c.decl c.reads o)) := by
      simp only [SpClass.code]
      rw [bind_of_ok h4]; rfl
    rw [e]; exact h5

/-- Evaluating the density at one distance. -/
theorem normAt_returns (env : DistEnv F G) (c : SpClass F) (i : Option F) (r : F)
    {o : Obj F} {vs : List F} (h : rdAll c.decl c.reads o = .ok vs) :
    ∃ o', normAt env c.code i r o =
        .ok (i.elim (c.dens vs r) fun x => env.div (c.dens vs r) x) o' ∧
      RdRel c.decl o o' ∧ NormRel c.reads c.decl o o' := by
  have h1 := c.at_outcome r o
  rw [h] at h1
  have h2 := ok_of_outcome (a := c.dens vs r) h1
  refine ⟨endState (c.code.at' r o), ?_, c.at_keeps r o, c.at_normRel r o⟩
  unfold normAt
  rw [bind_of_ok h2]
  cases i <;> rfl

theorem SpClass.at_ready (c : SpClass F) {o : Obj F} {vs : List F}
    (h : rdAll c.decl c.reads o = .ok vs) (r : F) :
    ∃ o', c.code.at' r o = .ok (c.dens vs r) o' ∧ RdRel c.decl o o' ∧
      NormRel c.reads c.decl o o' := by
  have h1 := c.at_outcome r o
  rw [h] at h1
  exact ⟨endState (c.code.at' r o), ok_of_outcome (a := c.dens vs r) h1, c.at_keeps r o,
    c.at_normRel r o⟩

section
variable [OfNat F 0] [OfNat F 1]

theorem readRMax_ok (env : DistEnv F G) {c : SpClass F} (hrm : c.decl "r_max" = declRMax env)
    {o : Obj F} {rm : F} (h : rd c.decl "r_max" o = some rm) :
    ∃ o', readRMax env o = .ok rm o' ∧ RdRel c.decl o o' ∧ NormRel c.reads c.decl o o' := by
  have h1 := outcome_paramGet_rd c.decl "r_max" o
  rw [h, hrm] at h1
  have h2 := ok_of_outcome (a := rm) h1
  exact ⟨_, h2, readRMax_keeps env hrm o, readRMax_normRel env _ _ o⟩

/-- What holds of the parameters while sampling. -/
structure Ready (c : SpClass F) (o0 o : Obj F) : Prop where
  rel : RdRel c.decl o0 o
  stored : NormStored o
  touched : ∀ n ∈ c.reads, (c.decl n).isNorm = true → o.norm.isSome

theorem Ready.step {c : SpClass F} {o0 o o' : Obj F} (h : Ready c o0 o) (h1 : RdRel c.decl o o')
    (h2 : NormRel c.reads c.decl o o') : Ready c o0 o' :=
  ⟨h.rel.trans h1, h2.stored h.stored, fun n hn hf => h1.some (h.touched n hn hf)⟩

/-- Lines 380-389 succeed. -/
theorem drawDistance_tail (env : DistEnv F G) (c : SpClass F) (i : Option F) (rs : List F)
    {o0 o : Obj F} (old : Option (Option F)) (hR : Ready c o0 o) {vs : List F}
    (hvs : rdAll c.decl c.reads o0 = .ok vs) :
    ∃ old' o1 p o2 o3, pushNorm old o = .ok old' o1 ∧
      normArr env c.code i rs o1 = .ok p o2 ∧ popNorm old' o2 = .ok () o3 := by
  have hvo : rdAll c.decl c.reads o = .ok vs := by rw [rdAll_congr _ _ hR.rel.same]; exact hvs
  cases hn : o.norm with
  | none =>
    obtain ⟨o2, e2, k2, m2, _⟩ := normArr_returns env c i rs hvo
    have hno : ∀ n ∈ c.reads, (c.decl n).isNorm = false := by
      intro n hm
      cases hf : (c.decl n).isNorm with
      | false => rfl
      | true => have := hR.touched n hm hf; rw [hn] at this; cases this
    have hn2 : o2.norm = none := (m2.same hno).trans hn
    exact ⟨old, o, _, o2, o2, by unfold pushNorm; rw [hn], e2, by unfold popNorm; rw [hn2]⟩
  | some n =>
    obtain ⟨v, hv⟩ := Option.isSome_iff_exists.1 (hR.stored n hn)
    let o1 : Obj F := { o with storage := o.storage.set n (some 1) }
    have e1 : pushNorm old o = .ok (some v) o1 := by
      unfold pushNorm getNorm setNorm; simp [hn, hv, o1]
    obtain ⟨ws, hws⟩ : ∃ ws, rdAll c.decl c.reads o1 = .ok ws := by
      rw [rdAll_ok_iff]
      intro m hm
      by_cases hmn : n = m
      · subst hmn; simp [o1, rd]
      · have := (rdAll_ok_iff _ _ _).1 ⟨vs, hvo⟩ m hm
        simpa [o1, rd, Dict.get?_set, hmn] using this
    obtain ⟨o2, e2, k2, _, _⟩ := normArr_returns env c i rs hws
    obtain ⟨m, hm⟩ := Option.isSome_iff_exists.1 (k2.some (show o1.norm.isSome by
      show o.norm.isSome; rw [hn]; rfl))
    have e3 : popNorm (some v) o2 = .ok () { o2 with storage := o2.storage.set m v } := by
      unfold popNorm setNorm; simp [hm]
    exact ⟨some v, o1, _, o2, _, e1, e2, e3⟩

/-- `draw_distance` returns what its sampling loop returns. -/
theorem drawDistance_returns (env : DistEnv F G) (c : SpClass F)
    (hrm : c.decl "r_max" = declRMax env) (showProgress normalize : Bool) (n : Nat)
    (sp : Spat F) (g g' : G) {o1 : Obj F} {i : Option F} {old : Option (Option F)} {rm : F}
    {vs rs : List F}
    (hblock : normBlock env c.code normalize sp.params = .ok (i, old) o1)
    (hst : NormStored o1) (hr : rd c.decl "r_max" o1 = some rm)
    (hvs : rdAll c.decl c.reads o1 = .ok vs)
    (hdraw : ∀ sp', Ready c o1 sp'.params → ∃ o', Ready c o1 o' ∧
      drawRadii env c.code showProgress i
        (env.npMax ((env.grid rm).map fun r => i.elim (c.dens vs r) fun x => env.div (c.dens vs r) x))
        n { sp := sp', rng := g } = .ok rs { sp := { sp' with params := o' }, rng := g' }) :
    ∃ sp', drawDistance env c.code showProgress n normalize { sp := sp, rng := g } =
        .ok () { sp := sp', rng := g' } ∧
      sp'.distances = some rs ∧ sp'.theta = sp.theta ∧ sp'.phi = sp.phi := by
  obtain ⟨o2, e2, k2, m2⟩ := readRMax_ok env hrm hr
  have hvs2 : rdAll c.decl c.reads o2 = .ok vs := by rw [rdAll_congr _ _ k2.same]; exact hvs
  obtain ⟨o3, e3, k3, m3, t3⟩ := normArr_returns env c i (env.grid rm) hvs2
  obtain ⟨o4, r4, e4⟩ := hdraw { sp with params := o3 }
    ⟨k2.trans k3, m3.stored (m2.stored hst), t3⟩
  obtain ⟨old', o5, p, o6, o7, e5, e6, e7⟩ := drawDistance_tail env c i rs old r4 hvs
  refine ⟨{ sp with params := o7, distances := some rs, probability := some p }, ?_, rfl, rfl, rfl⟩
  unfold drawDistance
  rw [bind_of_ok (show onParams (normBlock env c.code normalize) ({ sp := sp, rng := g } : SpSt F G) =
    .ok (i, old) { sp := { sp with params := o1 }, rng := g } by simp only [onParams, hblock])]
  dsimp only
  rw [bind_of_ok (show onParams (readRMax env) ({ sp := { sp with params := o1 }, rng := g } : SpSt F G) =
    .ok rm { sp := { sp with params := o2 }, rng := g } by simp only [onParams, e2])]
  rw [bind_of_ok (show onParams (normArr env c.code i (env.grid rm))
    ({ sp := { sp with params := o2 }, rng := g } : SpSt F G) =
    .ok ((env.grid rm).map fun r => i.elim (c.dens vs r) fun x => env.div (c.dens vs r) x)
      { sp := { sp with params := o3 }, rng := g } by simp only [onParams, e3])]
  rw [bind_of_ok e4]
  rw [bind_of_ok (modify_apply _ _)]
  dsimp only
  rw [bind_of_ok (show onParams (pushNorm old)
    ({ sp := { sp with params := o4, distances := some rs }, rng := g' } : SpSt F G) =
    .ok old' { sp := { sp with params := o5, distances := some rs }, rng := g' } by
      simp only [onParams, e5])]
  rw [bind_of_ok (show onParams (normArr env c.code i rs)
    ({ sp := { sp with params := o5, distances := some rs }, rng := g' } : SpSt F G) =
    .ok p { sp := { sp with params := o6, distances := some rs }, rng := g' } by
      simp only [onParams, e6])]
  rw [bind_of_ok (modify_apply _ _)]
  simp only [onParams, e7]

end
end Popsynth
