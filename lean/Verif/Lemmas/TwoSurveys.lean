import Verif.Lemmas.TwoRuns

/-! Two surveys from states that differ only in values left over from earlier surveys. -/

set_option autoImplicit false
set_option linter.unusedSectionVars false

namespace Popsynth
open Spec
variable {F G : Type}

/-! ### Preparing samplers -/

/-- As `Post`, but luminosities may have been handed out. -/
structure PostI (h h' t t' : Heap F G) : Prop where
  pair : Pair t t'
  mono : ∀ f, Eqat h h' f → Eqat t t' f
  ident : ∀ j, (t.samplers j).ident = (h.samplers j).ident
  kind : ∀ q, (t.selectors q).kind = (h.selectors q).kind
  sel : ∀ q, (t.selectors q).isSampled = true → (h.selectors q).isSampled = true ∨ Eqat t t' (.mask q)
  marks : ∀ j, h.sampled j = true → t.sampled j = true

theorem Post.toI {h h' t t' : Heap F G} (p : Post h h' t t') : PostI h h' t t' :=
  ⟨p.pair, p.mono, fun j => ident_of_static (p.stat j), p.kind, p.sel, p.marks⟩

theorem PostI.refl {h h' : Heap F G} (p : Pair h h') : PostI h h' h h' := (Post.refl p).toI

theorem PostI.trans {a a' b b' c c' : Heap F G} (p : PostI a a' b b') (q : PostI b b' c c') :
    PostI a a' c c' :=
  ⟨q.pair, fun f h => q.mono f (p.mono f h), fun j => (q.ident j).trans (p.ident j),
    fun x => (q.kind x).trans (p.kind x),
    fun x h => (q.sel x h).elim (fun h => (p.sel x h).imp id (q.mono _)) .inr,
    fun j h => q.marks j (p.marks j h)⟩

theorem PostI.congr {h h' t t' u u' : Heap F G} (p : PostI h h' t t') (hr : u.rng = u'.rng)
    (e1 : u.samplers = t.samplers) (e2 : u'.samplers = t'.samplers) (e3 : u.selectors = t.selectors)
    (e4 : u'.selectors = t'.selectors) : PostI h h' u u' where
  pair := ⟨⟨fun i => by rw [e1, e2]; exact p.pair.same.samplers i,
    fun q => by rw [e3, e4]; exact p.pair.same.selectors q⟩, hr⟩
  mono f hf := (p.mono f hf).congr e1 e2 e3 e4
  ident j := by rw [e1]; exact p.ident j
  kind q := by rw [e3]; exact p.kind q
  sel q := by
    rw [e3]
    intro hq
    exact (p.sel q hq).imp id fun k => k.congr e1 e2 e3 e4
  marks j hj := by simp only [Heap.sampled, e1]; exact p.marks j hj

theorem PostI.children {h h' t t' : Heap F G} (p : PostI h h' t t') : t.children = h.children := by
  funext j; simp only [Heap.children, ident_secondaries (p.ident j)]

/-- Luminosities were handed out in both runs alike. -/
structure PrepPair (lums : List F) (h h' t t' : Heap F G) : Prop where
  post : PostI h h' t t'
  sampled : t.sampled = h.sampled
  lum : ∀ j, ((t.samplers j).luminosity = (h.samplers j).luminosity ∧
      (t'.samplers j).luminosity = (h'.samplers j).luminosity) ∨
    ((t.samplers j).luminosity = some lums ∧ (t'.samplers j).luminosity = some lums)

theorem PrepPair.refl {lums : List F} {h h' : Heap F G} (p : Pair h h') : PrepPair lums h h' h h' :=
  ⟨PostI.refl p, rfl, fun _ => .inl ⟨rfl, rfl⟩⟩

theorem PrepPair.trans {lums : List F} {a a' b b' c c' : Heap F G} (p : PrepPair lums a a' b b')
    (q : PrepPair lums b b' c c') : PrepPair lums a a' c c' := by
  refine ⟨p.post.trans q.post, q.sampled.trans p.sampled, fun j => ?_⟩
  rcases q.lum j with h | h
  · rcases p.lum j with k | k
    · exact .inl ⟨h.1.trans k.1, h.2.trans k.2⟩
    · exact .inr ⟨h.1.trans k.1, h.2.trans k.2⟩
  · exact .inr h

theorem postI_modSampler {h h' : Heap F G} (p : Pair h h') (i : Nat) (f f' : Sampler F → Sampler F)
    (hs : SamplerUpToLeft (f (h.samplers i)) (f' (h'.samplers i)))
    (h1 : Eqat h h' (.spatial i) → (f (h.samplers i)).spatial = (f' (h'.samplers i)).spatial)
    (h2 : Eqat h h' (.lum i) → (f (h.samplers i)).luminosity = (f' (h'.samplers i)).luminosity)
    (h3 : Eqat h h' (.prob i) → (f (h.samplers i)).prob = (f' (h'.samplers i)).prob)
    (h4 : (f (h.samplers i)).ident = (h.samplers i).ident)
    (h5 : (h.samplers i).isSampled = true → (f (h.samplers i)).isSampled = true) :
    PostI h h' (h.modSampler i f) (h'.modSampler i f') := by
  refine ⟨⟨⟨fun j => ?_, p.same.selectors⟩, p.rng⟩, fun x hx => ?_, fun j => ?_, fun _ => rfl, fun _ => .inl,
    fun j => ?_⟩
  · by_cases hj : j = i
    · subst hj; simpa using hs
    · simpa [Heap.modSampler, hj] using p.same.samplers j
  · cases x with
    | spatial j =>
      by_cases hj : j = i
      · subst hj; simpa [Eqat] using h1 hx
      · simpa [Eqat, Heap.modSampler, hj] using hx
    | lum j =>
      by_cases hj : j = i
      · subst hj; simpa [Eqat] using h2 hx
      · simpa [Eqat, Heap.modSampler, hj] using hx
    | prob j =>
      by_cases hj : j = i
      · subst hj; simpa [Eqat] using h3 hx
      · simpa [Eqat, Heap.modSampler, hj] using hx
    | _ => exact hx
  · by_cases hj : j = i
    · subst hj; simpa using h4
    · simp [Heap.modSampler, hj]
  · by_cases hj : j = i
    · subst hj; simpa [Heap.sampled] using h5
    · simp [Heap.modSampler, hj, Heap.sampled]

section
variable [LE F] [DecidableLE F] [OfNat F 0] [OfNat F 1]

theorem setSpatialValues_pair (lums : List F) (i : Nat) (v : Spatial F) {h h' : Heap F G} (p : Pair h h') :
    TwoRuns (fun _ t t' => PrepPair lums h h' t t' ∧ Eqat t t' (.spatial i))
      (setSpatialValues i v h) (setSpatialValues i v h') := by
  refine ⟨rfl, ⟨postI_modSampler p i _ _ ?_ (fun _ => rfl) id id rfl id, ?_, fun j => ?_⟩, by simp [Eqat]⟩
  · have := sameSampler_iff.1 (p.same.samplers i)
    rw [sameSampler_iff]; simp only; grind
  · funext j; by_cases hj : j = i <;> simp [Heap.sampled, Heap.modSampler, hj]
  · by_cases hj : j = i <;> simp [Heap.modSampler, hj]

theorem setLuminosity_pair (lums : List F) (i : Nat) {h h' : Heap F G} (p : Pair h h') :
    TwoRuns (fun _ t t' => PrepPair lums h h' t t') (setLuminosity i lums h) (setLuminosity i lums h') := by
  refine ⟨rfl, ⟨postI_modSampler p i _ _ ?_ id (fun _ => rfl) id rfl id, ?_, fun j => ?_⟩⟩
  · have := sameSampler_iff.1 (p.same.samplers i)
    rw [sameSampler_iff]; simp only; grind
  · funext j; by_cases hj : j = i <;> simp [Heap.sampled, Heap.modSampler, hj]
  · by_cases hj : j = i <;> simp [Heap.modSampler, hj]

theorem prepareSec_pair (lums : List F) (v : Spatial F) (x : String × Nat) {h h' : Heap F G} (p : Pair h h') :
    TwoRuns (fun _ t t' => PrepPair lums h h' t t') (prepareSec lums v x h) (prepareSec lums v x h') := by
  obtain ⟨b1, -, -, -, -, -, b7, -⟩ := p.sampler x.2
  unfold prepareSec
  refine TwoRuns.get' ?_
  rw [b1, b7]
  cases (h.samplers x.2).usesLuminosity <;> cases (h.samplers x.2).usesDistance
  · exact ⟨rfl, PrepPair.refl p⟩
  · exact (setSpatialValues_pair lums x.2 v p).imp fun _ _ _ k => k.1
  · exact setLuminosity_pair lums x.2 p
  · refine TwoRuns.bind (setLuminosity_pair lums x.2 p) fun _ t t' k => ?_
    exact (setSpatialValues_pair lums x.2 v k.post.pair).imp fun _ _ _ k' => k.trans k'.1

theorem prepareAux_pair (lums : List F) (v : Spatial F) (i : Nat) {h h' : Heap F G} (p : Pair h h') :
    TwoRuns (fun _ t t' => PrepPair lums h h' t t' ∧ Eqat t t' (.spatial i) ∧
      ((t.samplers i).luminosity = some lums ∧ (t'.samplers i).luminosity = some lums) ∧
      ∀ c ∈ h.children i, (h.samplers c).usesLuminosity = true → (t.samplers c).luminosity = some lums ∧
        (t'.samplers c).luminosity = some lums)
      (prepareAux lums v i h) (prepareAux lums v i h') := by
  have key : TwoRuns (fun _ t t' => PrepPair lums h h' t t') (prepareAux lums v i h) (prepareAux lums v i h') := by
    unfold prepareAux
    refine TwoRuns.bind (setLuminosity_pair lums i p) fun _ t t' k => ?_
    refine TwoRuns.bind (setSpatialValues_pair lums i v k.post.pair) fun _ t1 t1' k1 => ?_
    refine TwoRuns.get' ?_
    have k2 := k.trans k1.1
    rw [(k2.post.pair.sampler i).2.2.1]
    exact TwoRuns.forEach' (I := PrepPair lums h h') _ k2 fun x _ u u' ku =>
      (prepareSec_pair lums v x ku.post.pair).imp fun _ _ _ k' => ku.trans k'
  refine key.impBoth ?_
  intro _ t t' k1 k2 pp
  obtain ⟨-, a2, a3, a4⟩ := prepareAux_ok k1
  obtain ⟨-, c2, c3, c4⟩ := prepareAux_ok k2
  refine ⟨pp, by simp [Eqat, a3, c3], ⟨a2, c2⟩, ?_⟩
  intro c hc hu
  obtain ⟨x, hx, rfl⟩ := List.mem_map.1 hc
  refine ⟨a4 x hx hu, c4 x ?_ ?_⟩
  · rw [(p.sampler i).2.2.1]; exact hx
  · rw [(p.sampler x.2).2.2.2.2.2.2.1]; exact hu

/-! ### Collecting -/

omit [LE F] [DecidableLE F] [OfNat F 0] [OfNat F 1] in
theorem mem_setEntry {x y : String × SecC F} (d : Dict (SecC F)) (h : x ∈ Dict.set d y.1 y.2) :
    x ∈ d ∨ x.2 = y.2 := by
  induction d with
  | nil => simp [Dict.set] at h; right; rw [h]
  | cons z d ih =>
    unfold Dict.set at h
    split at h
    · rcases List.mem_cons.1 h with rfl | h
      · exact .inr rfl
      · exact .inl (by simp [h])
    · rcases List.mem_cons.1 h with rfl | h
      · exact .inl (by simp)
      · rcases ih h with h | h
        · exact .inl (by simp [h])
        · exact .inr h

omit [LE F] [DecidableLE F] [OfNat F 0] [OfNat F 1] in
theorem Storage.mem_add {a b : Storage F} {x : String × SecC F} (h : x ∈ Storage.add a b) :
    x ∈ a ∨ ∃ y ∈ b, x.2 = y.2 := by
  unfold Storage.add at h
  split at h
  · exact .inr ⟨x, h, rfl⟩
  · split at h
    · exact .inl h
    · rename_i h1 h2
      clear h1 h2
      induction b generalizing a with
      | nil => exact .inl h
      | cons y b ih =>
        rcases ih h with h | ⟨z, hz, e⟩
        · rcases mem_setEntry _ h with h | h
          · exact .inl h
          · exact .inr ⟨y, by simp, h⟩
        · exact .inr ⟨z, by simp [hz], e⟩

/-- The entries of a storage name selectors of samplers in `S`. -/
def NamesSel (h : Heap F G) (S : Nat → Prop) (a : Storage F) : Prop :=
  ∀ kv ∈ a, ∃ j, S j ∧ kv.2.selection = (h.samplers j).selector

theorem NamesSel.add {h : Heap F G} {S : Nat → Prop} {a b : Storage F} (ha : NamesSel h S a)
    (hb : NamesSel h S b) : NamesSel h S (Storage.add a b) := by
  intro kv hkv
  rcases Storage.mem_add hkv with h | ⟨y, hy, e⟩
  · exact ha kv h
  · rw [e]; exact hb y hy

theorem NamesSel.set {h : Heap F G} {S : Nat → Prop} {a : Storage F} {nm : String} {c : SecC F}
    (ha : NamesSel h S a) (hc : ∃ j, S j ∧ c.selection = (h.samplers j).selector) :
    NamesSel h S (Dict.set a nm c) := by
  intro kv hkv
  rcases mem_setEntry (y := (nm, c)) a hkv with h | h
  · exact ha kv h
  · rw [h]; exact hc

theorem NamesSel.mono {h h' : Heap F G} {S S' : Nat → Prop} {a : Storage F} (ha : NamesSel h S a)
    (hs : ∀ j, S j → S' j ∧ (h'.samplers j).selector = (h.samplers j).selector) : NamesSel h' S' a := by
  intro kv hkv
  obtain ⟨j, hj, e⟩ := ha kv hkv
  exact ⟨j, (hs j hj).1, by rw [e, (hs j hj).2]⟩

/-- Loops over two functions that agree. -/
theorem foldlM_pair {α β : Type} {P : β → Prop} {f f' : β → α → Except Err β} (l : List α) (b : β) (hb : P b)
    (hf : ∀ x ∈ l, ∀ b, P b → f b x = f' b x ∧ ∀ c, f b x = .ok c → P c) :
    l.foldlM f b = l.foldlM f' b ∧ ∀ c, l.foldlM f b = .ok c → P c := by
  induction l generalizing b with
  | nil => exact ⟨rfl, fun c h => by cases h; exact hb⟩
  | cons x l ih =>
    obtain ⟨e, k⟩ := hf x (by simp) b hb
    simp only [List.foldlM_cons, ← e]
    cases hx : f b x with
    | error err => exact ⟨rfl, fun c h => by cases h⟩
    | ok b' => exact ih b' (k b' hx) fun y hy => hf y (by simp [hy])

theorem secProps_pair (S : Nat → Prop) {h h' : Heap F G} (p : Pair h h')
    (hc : ∀ j, S j → ∀ c ∈ h.children j, S c) (hp : ∀ j, S j → Eqat h h' (.prob j)) :
    ∀ (k i : Nat), S i → secProps h k i = secProps h' k i ∧
      ∀ r, secProps h k i = .ok r → NamesSel h S r
  | 0, i, _ => ⟨rfl, fun r hr => by cases hr⟩
  | k + 1, i, hi => by
    obtain ⟨-, a2, a3, -, -, -, -, a8, a9, a10, a11, -⟩ := p.sampler i
    have a13 : (h'.samplers i).probability = (h.samplers i).probability := by
      have := hp i hi
      simp only [Eqat] at this
      simp only [Sampler.probability, this, a10]
    have hl := foldlM_pair (P := NamesSel h S) (f := fun acc p => do
        let r ← secProps h k p.2
        pure (Storage.add acc r)) (f' := fun acc p => do
        let r ← secProps h' k p.2
        pure (Storage.add acc r)) (h.samplers i).secondaries [] (fun kv hkv => by cases hkv) (by
      intro x hx b hb
      obtain ⟨e, hn⟩ := secProps_pair S p hc hp k x.2 (hc i hi _ (List.mem_map_of_mem hx))
      rw [← e]
      refine ⟨rfl, ?_⟩
      intro c hc
      cases hr : secProps h k x.2 with
      | error err => rw [hr] at hc; cases hc
      | ok r => rw [hr] at hc; cases hc; exact hb.add (hn r hr))
    unfold secProps
    dsimp only
    rw [a2, a3, a8, a9, a10, a11, a13]
    have hown : ∃ j, S j ∧ (h.samplers i).selector = (h.samplers j).selector := ⟨i, hi, rfl⟩
    split
    · rw [← hl.1]
      refine ⟨rfl, fun r hr => ?_⟩
      cases hf : (h.samplers i).secondaries.foldlM (fun acc p => do
        let r ← secProps h k p.2
        pure (Storage.add acc r)) [] with
      | error err => simp only [hf] at hr; cases hr
      | ok b => simp only [hf] at hr; cases hr; exact (hl.2 b hf).set hown
    · refine ⟨rfl, fun r hr => ?_⟩
      cases hr
      exact NamesSel.set (fun kv hkv => by cases hkv) hown

theorem secTruths_pair {h h' : Heap F G} (p : Pair h h') (i : Nat) (t : Dict (Dict F)) :
    secTruths h' i t = secTruths h i t := by
  unfold secTruths
  rw [(p.sampler i).2.2.1]
  congr 1
  funext t x
  rw [(p.sampler x.2).2.2.2.2.2.2.2.1, (p.sampler x.2).2.2.2.2.2.2.2.2.2.2.2]

/-! ### Invariants of the draws -/

/-- The survey hands luminosities to sampler `j` before `j` is drawn: `j` is attached, or it
uses luminosities and is a secondary of attached samplers only. -/
def Spec.GetsLuminosity (y : Synth F) (h : Heap F G) (j : Nat) : Prop :=
  y.derived ≠ some j ∧ (j ∈ y.aux.map Prod.snd ∨ ((h.samplers j).usesLuminosity = true ∧
    ∀ i, ReachFrom h y.roots i → j ∈ h.children i → i ∈ y.aux.map Prod.snd))

/-- As `ReadyAt`, but the luminosities of samplers in `W` are still to come. -/
structure ReadyW (W : Nat → Prop) (h h' : Heap F G) (j : Nat) : Prop where
  rest : h.sampled j = false → Eqat h h' (.flux (h.samplers j).selector) ∧
    Eqat h h' (.sspat (h.samplers j).selector) ∧
    ((h.samplers j).usesDistance = false → Eqat h h' (.dist (h.samplers j).selector)) ∧
    ((h.selectors (h.samplers j).selector).kind.isDummy = true → Eqat h h' (.mask (h.samplers j).selector))
  lum : h.sampled j = false → ¬ W j → Eqat h h' (.lum j) ∧
    ((h.samplers j).luminosity = none → Eqat h h' (.slum (h.samplers j).selector))
  done : h.sampled j = true → Eqat h h' (.prob j) ∧ Eqat h h' (.mask (h.samplers j).selector)

theorem ReadyW.at {W : Nat → Prop} {h h' : Heap F G} {j : Nat} (a : ReadyW W h h' j)
    (hw : W j → (h.samplers j).luminosity ≠ none ∧ Eqat h h' (.lum j)) : ReadyAt h h' j := by
  refine ⟨a.rest, fun hj => ?_, a.done⟩
  by_cases w : W j
  · exact ⟨(hw w).2, fun hn => absurd hn (hw w).1⟩
  · exact a.lum hj w

theorem ReadyW.post {W : Nat → Prop} {h h' t t' : Heap F G} {j : Nat} (a : ReadyW W h h' j)
    (p : Post h h' t t') (n : NewlyDone h t t') : ReadyW W t t' j := by
  have hf : t.sampled j = false → h.sampled j = false := by
    intro hj
    cases hh : h.sampled j with
    | false => rfl
    | true => rw [p.marks j hh] at hj; cases hj
  have e1 := static_selector (p.stat j)
  have e2 := static_usesDistance (p.stat j)
  have e3 := static_luminosity (p.stat j)
  refine ⟨fun hj => ?_, fun hj hw => ?_, fun hj => ?_⟩
  · rw [e1, e2, p.kind]
    obtain ⟨h1, h2, h3, h4⟩ := a.rest (hf hj)
    exact ⟨p.mono _ h1, p.mono _ h2, fun k => p.mono _ (h3 k), fun k => p.mono _ (h4 k)⟩
  · rw [e1, e3]
    obtain ⟨h1, h2⟩ := a.lum (hf hj) hw
    exact ⟨p.mono _ h1, fun k => p.mono _ (h2 k)⟩
  · rcases n j hj with h | h
    · rw [e1]
      exact ⟨p.mono _ (a.done h).1, p.mono _ (a.done h).2⟩
    · exact h

theorem ReadyW.prep {W : Nat → Prop} {lums : List F} {h h' t t' : Heap F G} {j : Nat} (a : ReadyW W h h' j)
    (p : PrepPair lums h h' t t') : ReadyW W t t' j := by
  have e1 := ident_selector (p.post.ident j)
  have e2 := ident_usesDistance (p.post.ident j)
  refine ⟨fun hj => ?_, fun hj hw => ?_, fun hj => ?_⟩ <;> rw [p.sampled] at hj
  · rw [e1, e2, p.post.kind]
    obtain ⟨h1, h2, h3, h4⟩ := a.rest hj
    exact ⟨p.post.mono _ h1, p.post.mono _ h2, fun k => p.post.mono _ (h3 k), fun k => p.post.mono _ (h4 k)⟩
  · rw [e1]
    obtain ⟨h1, h2⟩ := a.lum hj hw
    refine ⟨p.post.mono _ h1, fun k => p.post.mono _ (h2 ?_)⟩
    rcases p.lum j with l | l
    · rw [← l.1]; exact k
    · rw [l.1] at k; cases k
  · rw [e1]
    exact ⟨p.post.mono _ (a.done hj).1, p.post.mono _ (a.done hj).2⟩

/-- What holds of the heaps of two surveys at the same point; `h0`, `h0'` are those after
seeding. -/
structure HInv (y : Synth F) (h0 h0' h h' : Heap F G) : Prop where
  post : PostI h0 h0' h h'
  ready : ∀ j, ReachFrom h0 y.roots j → ReadyW (GetsLuminosity y h0) h h' j
  closed : DownClosed h.children h.sampled

theorem HInv.draw {y : Synth F} {h0 h0' h h' t t' : Heap F G} (a : HInv y h0 h0' h h') (p : Post h h' t t')
    (n : NewlyDone h t t') (hd : DownClosed t.children t.sampled) : HInv y h0 h0' t t' :=
  ⟨a.post.trans p.toI, fun j hj => (a.ready j hj).post p n, hd⟩

theorem Post.children {h h' t t' : Heap F G} (p : Post h h' t t') : t.children = h.children := p.toI.children

theorem HInv.keep {y : Synth F} {h0 h0' h h' t t' : Heap F G} (a : HInv y h0 h0' h h') (p : Post h h' t t')
    (hs : t.sampled = h.sampled) : HInv y h0 h0' t t' :=
  a.draw p (fun j hj => .inl (by rw [← hs]; exact hj)) (by rw [hs, p.children]; exact a.closed)

theorem HInv.prep {y : Synth F} {lums : List F} {h0 h0' h h' t t' : Heap F G} (a : HInv y h0 h0' h h')
    (p : PrepPair lums h h' t t') : HInv y h0 h0' t t' :=
  ⟨a.post.trans p.post, fun j hj => (a.ready j hj).prep p, by rw [p.sampled, p.post.children]; exact a.closed⟩

theorem HInv.rng {y : Synth F} {h0 h0' h h' : Heap F G} (a : HInv y h0 h0' h h') (g : G) :
    HInv y h0 h0' { h with rng := g } { h' with rng := g } :=
  a.keep ((Post.refl a.post.pair).congr rfl rfl rfl rfl rfl) rfl

/-- Attached samplers are not secondaries of samplers of the survey, and the derived
luminosity sampler is not attached as well. -/
structure Spec.Rooted (y : Synth F) (h : Heap F G) : Prop where
  primary : ∀ i ∈ y.aux.map Prod.snd, ∀ k, ReachFrom h y.roots k → i ∉ h.children k
  separate : ∀ d, y.derived = some d → d ∉ y.aux.map Prod.snd

theorem reach_parent {ch : Nat → List Nat} {i j : Nat} (h : Reach ch i j) :
    j = i ∨ ∃ p, Reach ch i p ∧ j ∈ ch p := by
  induction h with
  | here => exact .inl rfl
  | @step a b c hc hr ih =>
    right
    rcases ih with rfl | ⟨p, hp, hj⟩
    · exact ⟨_, .here _, hc⟩
    · exact ⟨p, .step hc hp, hj⟩

theorem reach_trans_child {ch : Nat → List Nat} {i j k : Nat} (h : Reach ch i j) (hk : k ∈ ch j) :
    Reach ch i k := by
  induction h with
  | here => exact .step hk (.here _)
  | step hc _ ih => exact .step hc (ih hk)

/-- Nothing the derived sampler needs waits for luminosities. -/
theorem Spec.Rooted.derived {y : Synth F} {h : Heap F G} (r : Rooted y h) {d j : Nat} (hd : y.derived = some d)
    (hr : Reach h.children d j) : ¬ GetsLuminosity y h j := by
  have hroot : d ∈ y.roots := by simp [Synth.roots, hd]
  rintro ⟨h1, h2⟩
  rcases reach_parent hr with rfl | ⟨p, hp, hj⟩
  · exact h1 hd
  · have hpr : ReachFrom h y.roots p := ⟨d, hroot, hp⟩
    rcases h2 with h2 | ⟨-, h2⟩
    · exact r.primary j h2 p hpr hj
    · have hpa := h2 p hpr hj
      rcases reach_parent hp with rfl | ⟨p', hp', hj'⟩
      · exact r.separate p hd hpa
      · exact r.primary p hpa p' ⟨d, hroot, hp'⟩ hj'

/-- What an attached sampler needs and waits for luminosities is the sampler itself or a
direct secondary using luminosities. -/
theorem Spec.Rooted.attached {y : Synth F} {h : Heap F G} (r : Rooted y h) {i j : Nat}
    (hi : i ∈ y.aux.map Prod.snd) (hr : Reach h.children i j) (hg : GetsLuminosity y h j) :
    j = i ∨ (j ∈ h.children i ∧ (h.samplers j).usesLuminosity = true) := by
  have hroot : i ∈ y.roots := by simp only [Synth.roots, List.mem_append]; exact .inr hi
  rcases reach_parent hr with rfl | ⟨p, hp, hj⟩
  · exact .inl rfl
  · have hpr : ReachFrom h y.roots p := ⟨i, hroot, hp⟩
    right
    rcases hg.2 with h2 | ⟨hu, h2⟩
    · exact (r.primary j h2 p hpr hj).elim
    · have hpa := h2 p hpr hj
      rcases reach_parent hp with rfl | ⟨p', hp', hj'⟩
      · exact ⟨hj, hu⟩
      · exact (r.primary p hpa p' ⟨i, hroot, hp'⟩ hj').elim

/-! ### Plumbing -/

theorem TwoRuns.onHeap' {α : Type} {Q : α → Heap F G → Heap F G → Prop} {m : Py (Heap F G) α}
    {s s' : SurvSt F G} (h : TwoRuns Q (m s.heap) (m s'.heap)) :
    TwoRuns (fun a t t' => Q a t.heap t'.heap ∧ t.sp = s.sp ∧ t.lum = s.lum ∧ t'.sp = s'.sp ∧ t'.lum = s'.lum)
      (onHeap m s) (onHeap m s') := by
  unfold onHeap
  cases h1 : m s.heap <;> cases h2 : m s'.heap <;> rw [h1, h2] at h
  · exact ⟨h.1, h.2, rfl, rfl, rfl, rfl⟩
  · exact h.elim
  · exact h.elim
  · exact h

/-- What holds of the states of two surveys at the same point. -/
structure SInv (y : Synth F) (h0 h0' : Heap F G) (s s' : SurvSt F G) : Prop where
  heap : HInv y h0 h0' s.heap s'.heap
  sp : s.sp.params = s'.sp.params
  lum : s.lum.params = s'.lum.params

/-- The reported quantities are those of drawn samplers. -/
def LocOk (y : Synth F) (h0 h : Heap F G) (loc : Loc F) : Prop :=
  NamesSel h (fun j => ReachFrom h0 y.roots j ∧ h.sampled j = true) loc.auxq

theorem LocOk.mono {y : Synth F} {h0 h h' t t' : Heap F G} {loc : Loc F} (a : LocOk y h0 h loc)
    (p : PostI h h' t t') : LocOk y h0 t loc :=
  NamesSel.mono a fun j hj => ⟨⟨hj.1, p.marks j hj.2⟩, ident_selector (p.ident j)⟩

/-! ### The stages of a survey -/

/-- Drawing one sampler of the survey. -/
theorem drawRoot_pair (w : World F G) (n k i : Nat) {y : Synth F} {h0 h0' h h' : Heap F G}
    (a : HInv y h0 h0' h h') (hi : i ∈ y.roots) (hsp : Eqat h h' (.spatial i))
    (hw : ∀ j, Reach h0.children i j → GetsLuminosity y h0 j →
      (h.samplers j).luminosity ≠ none ∧ Eqat h h' (.lum j)) :
    TwoRuns (fun _ t t' => Post h h' t t' ∧ HInv y h0 h0' t t' ∧ t.sampled i = true)
      (samplerDraw w k i n h) (samplerDraw w k i n h') := by
  have hch := a.post.children
  refine (samplerDraw_pair w n (fun j => Reach h0.children i j) k i h h' a.post.pair (.here _) ?_ ?_ hsp).impBoth ?_
  · intro j hj c hc
    rw [hch] at hc
    exact reach_trans_child hj hc
  · intro j hj
    exact (a.ready j ⟨i, hi, hj⟩).at (hw j hj)
  · intro _ t t' k1 _ ⟨p, nd⟩
    have hd := samplerDraw_downClosed w n k i h a.closed
    rw [k1] at hd
    exact ⟨p, a.draw p nd hd, samplerDraw_marks w n k i h t k1⟩

/-- Collecting what belongs to one drawn sampler. -/
theorem collect_pair (frames i : Nat) {y : Synth F} {h0 h0' h h' : Heap F G}
    (a : HInv y h0 h0' h h') (hi : ReachFrom h0 y.roots i) (hs : h.sampled i = true) :
    secProps h frames i = secProps h' frames i ∧ ∀ r, secProps h frames i = .ok r →
      NamesSel h (fun j => ReachFrom h0 y.roots j ∧ h.sampled j = true) r := by
  have hch := a.post.children
  refine secProps_pair (fun j => ReachFrom h0 y.roots j ∧ h.sampled j = true) a.post.pair ?_ ?_ frames i ⟨hi, hs⟩
  · rintro j ⟨⟨r, hr, hj⟩, hsj⟩ c hc
    refine ⟨⟨r, hr, ?_⟩, a.closed j hsj c hc⟩
    rw [hch] at hc
    exact reach_trans_child hj hc
  · rintro j ⟨hj, hsj⟩
    exact ((a.ready j hj).done hsj).1

theorem derivedLuminosity_pair (e : SurveyEnv F G) (n : Nat) (v : Spatial F) (d : Nat) (loc : Loc F)
    {y : Synth F} {h0 h0' : Heap F G} {s s' : SurvSt F G} (a : SInv y h0 h0' s s') (hr : Rooted y h0)
    (hd : y.derived = some d) (hl : LocOk y h0 s.heap loc) (hlum : Eqat s.heap s'.heap (.lum d)) :
    TwoRuns (fun r t t' => SInv y h0 h0' t t' ∧ LocOk y h0 t.heap r.2)
      (derivedLuminosity e n v d loc s) (derivedLuminosity e n v d loc s') := by
  have hroot : d ∈ y.roots := by simp [Synth.roots, hd]
  have hdr : ReachFrom h0 y.roots d := ⟨d, hroot, .here _⟩
  unfold derivedLuminosity
  refine TwoRuns.bind (TwoRuns.onHeap' (setSpatialValues_pair [] d v a.heap.post.pair)) ?_
  rintro - t t' ⟨⟨p1, hsp⟩, x1, x2, x3, x4⟩
  have a1 := a.heap.prep p1
  have hl1 := hl.mono p1.post
  refine TwoRuns.bind (TwoRuns.onHeap' (drawRoot_pair e.world n e.frames d a1 hroot hsp
    (fun j hj hg => (hr.derived hd hj hg).elim))) ?_
  rintro - u u' ⟨⟨p2, a2, hu⟩, z1, z2, z3, z4⟩
  have hl2 := hl1.mono p2.toI
  refine TwoRuns.get' ?_
  dsimp only
  obtain ⟨-, b2, b3, -, -, -, -, b8, -, b10, b11, b12⟩ := a2.post.pair.sampler d
  have hv : u'.heap.view d = u.heap.view d :=
    a2.post.pair.view (p2.mono _ hsp) (p2.mono _ (p1.post.mono _ hlum))
  have hpr : (u'.heap.samplers d).probability = (u.heap.samplers d).probability := by
    have := ((a2.ready d hdr).done hu).1
    simp only [Eqat] at this
    simp only [Sampler.probability, this, b10]
  have hfold : ∀ q, LocOk y h0 u.heap { loc with auxq := q } → (u'.heap.samplers d).secondaries.foldlM
      (fun acc p => do
        let r ← secProps u'.heap e.frames p.2
        pure (Storage.add acc r)) q = (u.heap.samplers d).secondaries.foldlM
      (fun acc p => do
        let r ← secProps u.heap e.frames p.2
        pure (Storage.add acc r)) q ∧
      ∀ q', (u.heap.samplers d).secondaries.foldlM
        (fun acc p => do
          let r ← secProps u.heap e.frames p.2
          pure (Storage.add acc r)) q = .ok q' → LocOk y h0 u.heap { loc with auxq := q' } := by
    intro q hq
    rw [b3]
    have := foldlM_pair (P := fun q => LocOk y h0 u.heap { loc with auxq := q })
      (f := fun acc p => do
        let r ← secProps u.heap e.frames p.2
        pure (Storage.add acc r)) (f' := fun acc p => do
        let r ← secProps u'.heap e.frames p.2
        pure (Storage.add acc r)) (u.heap.samplers d).secondaries q hq (by
      intro x hx b hb
      have hc : x.2 ∈ u.heap.children d := List.mem_map_of_mem hx
      have hxs := a2.closed d hu _ hc
      rw [a2.post.children] at hc
      obtain ⟨k1, k2⟩ := collect_pair e.frames x.2 a2 ⟨d, hroot, .step hc (.here _)⟩ hxs
      rw [← k1]
      refine ⟨rfl, fun c hcc => ?_⟩
      cases hk : secProps u.heap e.frames x.2 with
      | error err => rw [hk] at hcc; cases hcc
      | ok r => rw [hk] at hcc; cases hcc; exact NamesSel.add hb (k2 r hk))
    exact ⟨this.1.symm, this.2⟩
  rw [b2, b8, b10, b11, b12, hv, hpr]
  have hown : LocOk y h0 u.heap { loc with auxq := Dict.set loc.auxq (u.heap.samplers d).name (
      { name := (u.heap.samplers d).name, trueVals := (u.heap.samplers d).trueVals,
        obsVals := (u.heap.samplers d).obsVals, selection := (u.heap.samplers d).selector,
        prob := (u.heap.samplers d).probability } : SecC F) } := NamesSel.set hl2 ⟨d, ⟨hdr, hu⟩, rfl⟩
  obtain ⟨f1, f2⟩ := hfold _ hown
  have au : SInv y h0 h0' u u' := ⟨a2, by rw [z1, z3, x1, x3]; exact a.sp, by rw [z2, z4, x2, x4]; exact a.lum⟩
  refine TwoRuns.bind (Q := fun _ t t' => u = t ∧ u' = t') (TwoRuns.assert' fun _ => ⟨rfl, rfl⟩) ?_
  rintro - _ _ ⟨rfl, rfl⟩
  refine TwoRuns.bind (Q := fun _ t t' => u = t ∧ u' = t') (TwoRuns.assert' fun _ => ⟨rfl, rfl⟩) ?_
  rintro - _ _ ⟨rfl, rfl⟩
  refine TwoRuns.bind (Q := fun _ t t' => u = t ∧ u' = t') (TwoRuns.liftE' fun _ _ => ⟨rfl, rfl⟩) ?_
  rintro lums _ _ ⟨rfl, rfl⟩
  rw [f1]
  refine TwoRuns.bind (Q := fun q t t' => u = t ∧ u' = t' ∧ LocOk y h0 u.heap { loc with auxq := q })
    (TwoRuns.liftE' fun q hq => ⟨rfl, rfl, f2 q hq⟩) ?_
  rintro q _ _ ⟨rfl, rfl, hq⟩
  rw [secTruths_pair a2.post.pair]
  exact ⟨rfl, au, hq⟩

theorem auxStep_pair (e : SurveyEnv F G) (n : Nat) (lums : List F) (v : Spatial F) (loc : Loc F)
    (kv : String × Nat) {y : Synth F} {h0 h0' : Heap F G} {s s' : SurvSt F G} (a : SInv y h0 h0' s s')
    (hr : Rooted y h0) (hkv : kv ∈ y.aux) (hl : LocOk y h0 s.heap loc) :
    TwoRuns (fun r t t' => SInv y h0 h0' t t' ∧ LocOk y h0 t.heap r)
      (auxStep e n lums v loc kv s) (auxStep e n lums v loc kv s') := by
  have hm : kv.2 ∈ y.aux.map Prod.snd := List.mem_map_of_mem hkv
  have hroot : kv.2 ∈ y.roots := by simp only [Synth.roots, List.mem_append]; exact .inr hm
  have hdr : ReachFrom h0 y.roots kv.2 := ⟨kv.2, hroot, .here _⟩
  unfold auxStep
  refine TwoRuns.get' ?_
  rw [(a.heap.post.pair.sampler kv.2).2.2.2.2.1]
  refine TwoRuns.bind (Q := fun _ t t' => s = t ∧ s' = t') (TwoRuns.assert' fun _ => ⟨rfl, rfl⟩) ?_
  rintro - _ _ ⟨rfl, rfl⟩
  refine TwoRuns.bind (TwoRuns.onHeap' (prepareAux_pair lums v kv.2 a.heap.post.pair)) ?_
  rintro - t t' ⟨⟨p1, hsp, hlu, hch⟩, x1, x2, x3, x4⟩
  have a1 := a.heap.prep p1
  have hl1 := hl.mono p1.post
  refine TwoRuns.bind (TwoRuns.onHeap' (drawRoot_pair e.world n e.frames kv.2 a1 hroot hsp ?_)) ?_
  · intro j hj hg
    rcases hr.attached hm hj hg with rfl | ⟨hc, hu⟩
    · exact ⟨by rw [hlu.1]; simp, by simp only [Eqat, hlu.1, hlu.2]⟩
    · have h1 := hch j (by rw [a.heap.post.children]; exact hc)
        (by rw [ident_usesLuminosity (a.heap.post.ident j)]; exact hu)
      exact ⟨by rw [h1.1]; simp, by simp only [Eqat, h1.1, h1.2]⟩
  rintro - u u' ⟨⟨p2, a2, hu⟩, z1, z2, z3, z4⟩
  have hl2 := hl1.mono p2.toI
  refine TwoRuns.get' ?_
  obtain ⟨-, b2, b3, -, -, -, -, b8, -, b10, b11, b12⟩ := a2.post.pair.sampler kv.2
  have au : SInv y h0 h0' u u' := ⟨a2, by rw [z1, z3, x1, x3]; exact a.sp, by rw [z2, z4, x2, x4]; exact a.lum⟩
  obtain ⟨c1, c2⟩ := collect_pair e.frames kv.2 a2 hdr hu
  rw [b8, b10, b11, b12, ← c1]
  refine TwoRuns.bind (Q := fun _ t t' => u = t ∧ u' = t') (TwoRuns.assert' fun _ => ⟨rfl, rfl⟩) ?_
  rintro - _ _ ⟨rfl, rfl⟩
  refine TwoRuns.bind (Q := fun _ t t' => u = t ∧ u' = t') (TwoRuns.assert' fun _ => ⟨rfl, rfl⟩) ?_
  rintro - _ _ ⟨rfl, rfl⟩
  refine TwoRuns.bind (Q := fun r t t' => u = t ∧ u' = t' ∧ NamesSel u.heap
      (fun j => ReachFrom h0 y.roots j ∧ u.heap.sampled j = true) r)
    (TwoRuns.liftE' fun r hr => ⟨rfl, rfl, c2 r hr⟩) ?_
  rintro r _ _ ⟨rfl, rfl, hq⟩
  rw [secTruths_pair a2.post.pair]
  exact ⟨rfl, au, NamesSel.add hl2 hq⟩

/-! ### Distributions -/

/-- The spatial distribution's methods do not use positions and probabilities left over
from earlier surveys: they compute them anew. -/
structure Spec.SpatialForgets (c : SpatialCode F G) : Prop where
  dist : ∀ n nz (t t' : SpSt F G), t.sp.params = t'.sp.params → t.rng = t'.rng →
    TwoRuns (fun _ u u' => u.sp.params = u'.sp.params ∧ u.rng = u'.rng ∧ u.sp.distances = u'.sp.distances ∧
      u.sp.probability = u'.sp.probability) (c.drawDistance n nz t) (c.drawDistance n nz t')
  sky : ∀ n (t t' : SpSt F G), t.sp.params = t'.sp.params → t.rng = t'.rng →
    t.sp.distances = t'.sp.distances → t.sp.probability = t'.sp.probability →
    TwoRuns (fun _ u u' => u = u') (c.drawSky n t) (c.drawSky n t')

/-- The luminosity distribution's `draw` does not use probabilities left over. -/
def Spec.LumForgets (c : LumCode F G) : Prop := ∀ n (t t' : LumSt F G), t.lum.params = t'.lum.params →
  t.rng = t'.rng → TwoRuns (fun _ u u' => u.lum.params = u'.lum.params ∧ u.rng = u'.rng) (c.draw n t) (c.draw n t')

theorem SInv.withRng {y : Synth F} {h0 h0' : Heap F G} {s s' : SurvSt F G} (a : SInv y h0 h0' s s')
    {sp sp' : Spat F} {lum lum' : Lum F} {g : G} {gr gr' : Graph} (h1 : sp.params = sp'.params)
    (h2 : lum.params = lum'.params) :
    SInv y h0 h0' { heap := { s.heap with rng := g }, sp := sp, lum := lum, graph := gr }
      { heap := { s'.heap with rng := g }, sp := sp', lum := lum', graph := gr' } :=
  ⟨a.heap.rng g, h1, h2⟩

theorem onSpatial_pair {α : Type} {Q : α → SpSt F G → SpSt F G → Prop} {m : Py (SpSt F G) α} {y : Synth F}
    {h0 h0' : Heap F G} {s s' : SurvSt F G} (a : SInv y h0 h0' s s')
    (h : TwoRuns Q (m ⟨s.sp, s.heap.rng⟩) (m ⟨s'.sp, s'.heap.rng⟩))
    (hq : ∀ x u u', Q x u u' → u.sp.params = u'.sp.params ∧ u.rng = u'.rng) :
    TwoRuns (fun x t t' => SInv y h0 h0' t t' ∧ Q x ⟨t.sp, t.heap.rng⟩ ⟨t'.sp, t'.heap.rng⟩ ∧
      t.heap.samplers = s.heap.samplers ∧ t.heap.selectors = s.heap.selectors)
      (onSpatial m s) (onSpatial m s') := by
  unfold onSpatial
  cases h1 : m ⟨s.sp, s.heap.rng⟩ <;> cases h2 : m ⟨s'.sp, s'.heap.rng⟩ <;> rw [h1, h2] at h
  · obtain ⟨q1, q2⟩ := hq _ _ _ h.2
    refine ⟨h.1, ?_, h.2, rfl, rfl⟩
    dsimp only
    rw [← q2]
    exact a.withRng q1 a.lum
  · exact h.elim
  · exact h.elim
  · exact h

theorem onParams_pair {α : Type} (m : Py (Obj F) α) {t t' : SpSt F G} (h1 : t.sp.params = t'.sp.params)
    (h2 : t.rng = t'.rng) : TwoRuns (fun _ u u' => u.sp.params = u'.sp.params ∧ u.rng = u'.rng ∧
      u = { t with sp := { t.sp with params := u.sp.params } } ∧
      u' = { t' with sp := { t'.sp with params := u'.sp.params } })
      (onParams m t) (onParams m t') := by
  unfold onParams
  rw [h1]
  cases m t'.sp.params with
  | ok x o => exact ⟨rfl, rfl, h2, rfl, rfl⟩
  | error err o => exact rfl

theorem onRng_pair {α : Type} (f : G → Except Err α × G) {y : Synth F} {h0 h0' : Heap F G} {s s' : SurvSt F G}
    (a : SInv y h0 h0' s s') : TwoRuns (fun _ t t' => SInv y h0 h0' t t' ∧ t.sp = s.sp ∧ t'.sp = s'.sp ∧
      t.heap.samplers = s.heap.samplers ∧ t.heap.selectors = s.heap.selectors) (onRng f s) (onRng f s') := by
  unfold onRng
  rw [← a.heap.post.pair.rng]
  rcases hf : f s.heap.rng with ⟨_ | x, g⟩
  · exact rfl
  · exact ⟨rfl, a.withRng a.sp a.lum, rfl, rfl, rfl, rfl⟩

theorem countObjects_pair (e : SurveyEnv F G) (ns : Option Nat) (nz : Bool) {y : Synth F} {h0 h0' : Heap F G}
    {s s' : SurvSt F G} (a : SInv y h0 h0' s s') :
    TwoRuns (fun _ t t' => SInv y h0 h0' t t') (countObjects e ns nz s) (countObjects e ns nz s') := by
  unfold countObjects
  cases ns with
  | some n => exact ⟨rfl, a⟩
  | none =>
    refine TwoRuns.bind (onSpatial_pair a (onParams_pair _ a.sp a.heap.post.pair.rng) fun _ _ _ h => ⟨h.1, h.2.1⟩) ?_
    rintro N t t' ⟨k, -⟩
    exact (onRng_pair _ k).imp fun _ _ _ h => h.1

theorem drawPositions_pair (e : SurveyEnv F G) (he : SpatialForgets e.spatial) (n : Nat) (nz : Bool)
    {y : Synth F} {h0 h0' : Heap F G} {s s' : SurvSt F G} (a : SInv y h0 h0' s s') :
    TwoRuns (fun _ t t' => SInv y h0 h0' t t') (drawPositions e n nz s) (drawPositions e n nz s') := by
  unfold drawPositions
  refine TwoRuns.bind (onSpatial_pair a (he.dist n nz _ _ a.sp a.heap.post.pair.rng) fun _ _ _ h => ⟨h.1, h.2.1⟩) ?_
  rintro - t t' ⟨k, ⟨q1, q2, q3, q4⟩, -⟩
  refine TwoRuns.get' ?_
  dsimp only at q1 q2 q3 q4
  rw [← q4]
  refine TwoRuns.bind (Q := fun _ u u' => t = u ∧ t' = u') (TwoRuns.liftE' fun _ _ => ⟨rfl, rfl⟩) ?_
  rintro prob _ _ ⟨rfl, rfl⟩
  refine TwoRuns.bind (onSpatial_pair k (he.sky n _ _ q1 q2 q3 q4) fun _ _ _ h => by subst h; exact ⟨rfl, rfl⟩) ?_
  rintro - u u' ⟨k2, q, -⟩
  have q : u.sp = u'.sp := congrArg SpSt.sp q
  refine TwoRuns.bind (Q := fun _ t t' => u = t ∧ u' = t') ?_ ?_
  · unfold spatialValues
    rw [← q]
    split
    · exact ⟨rfl, rfl, rfl⟩
    · exact rfl
    · exact rfl
  · rintro v _ _ ⟨rfl, rfl⟩
    exact ⟨rfl, k2⟩

theorem distLuminosity_pair (e : SurveyEnv F G) (he : LumForgets e.lum) (n : Nat) (name : String) (loc : Loc F)
    {y : Synth F} {h0 h0' : Heap F G} {s s' : SurvSt F G} (a : SInv y h0 h0' s s')
    (hl : LocOk y h0 s.heap loc) :
    TwoRuns (fun r t t' => SInv y h0 h0' t t' ∧ LocOk y h0 t.heap r.2)
      (distLuminosity e n name loc s) (distLuminosity e n name loc s') := by
  unfold distLuminosity
  refine TwoRuns.bind (Q := fun _ t t' => SInv y h0 h0' t t' ∧ LocOk y h0 t.heap loc) ?_ ?_
  · have h := he n ⟨s.lum, s.heap.rng⟩ ⟨s'.lum, s'.heap.rng⟩ a.lum a.heap.post.pair.rng
    unfold onLum
    cases h1 : e.lum.draw n ⟨s.lum, s.heap.rng⟩ <;> cases h2 : e.lum.draw n ⟨s'.lum, s'.heap.rng⟩ <;>
      rw [h1, h2] at h
    · obtain ⟨rfl, q1, q2⟩ := h
      refine ⟨rfl, ?_, hl⟩
      dsimp only
      rw [← q2]
      exact a.withRng a.sp q1
    · exact h.elim
    · exact h.elim
    · exact h
  rintro lums t t' ⟨k, hl1⟩
  refine TwoRuns.bind (Q := fun _ t t' => SInv y h0 h0' t t' ∧ LocOk y h0 t.heap loc ∧ t.lum = t'.lum) ?_ ?_
  · unfold onLum computeLumProbability
    dsimp only
    rw [← k.lum]
    cases e.lum.phi lums t.lum.params with
    | ok p o =>
      refine ⟨rfl, ?_, hl1, rfl⟩
      dsimp only
      rw [← k.heap.post.pair.rng]
      exact k.withRng k.sp rfl
    | error err o => exact rfl
  rintro - u u' ⟨k2, hl2, hu⟩
  refine TwoRuns.get' ?_
  rw [← hu]
  refine TwoRuns.bind (Q := fun _ t t' => u = t ∧ u' = t') (TwoRuns.liftE' fun _ _ => ⟨rfl, rfl⟩) ?_
  rintro prob _ _ ⟨rfl, rfl⟩
  exact ⟨rfl, k2, hl2⟩

theorem drawLuminosities_pair (e : SurveyEnv F G) (he : LumForgets e.lum) (n : Nat) (v : Spatial F)
    (loc : Loc F) {y : Synth F} {h0 h0' : Heap F G} {s s' : SurvSt F G} (a : SInv y h0 h0' s s')
    (hr : Rooted y h0) (hl : LocOk y h0 s.heap loc)
    (hlum : ∀ d, y.derived = some d → Eqat s.heap s'.heap (.lum d)) :
    TwoRuns (fun r t t' => SInv y h0 h0' t t' ∧ LocOk y h0 t.heap r.2)
      (drawLuminosities e y n v loc s) (drawLuminosities e y n v loc s') := by
  unfold drawLuminosities
  cases hd : y.derived with
  | some d => exact derivedLuminosity_pair e n v _ loc a hr hd hl (hlum _ hd)
  | none =>
    cases y.lumName with
    | some nm => exact distLuminosity_pair e he n _ loc a hl
    | none => exact rfl

theorem observeFlux_pair (e : SurveyEnv F G) (n : Nat) (sg : Option F) (l10 : Bool) (fl : List F)
    {y : Synth F} {h0 h0' : Heap F G} {s s' : SurvSt F G} (a : SInv y h0 h0' s s') :
    TwoRuns (fun _ t t' => SInv y h0 h0' t t' ∧ t.heap.samplers = s.heap.samplers)
      (observeFlux e y n sg l10 fl s) (observeFlux e y n sg l10 fl s') := by
  have hn : ∀ sigma fwd bwd, TwoRuns (fun _ t t' => SInv y h0 h0' t t' ∧ t.heap.samplers = s.heap.samplers)
      (noisyFlux e n sigma fwd bwd fl s) (noisyFlux e n sigma fwd bwd fl s') := by
    intro sigma fwd bwd
    unfold noisyFlux
    cases e.validScale sigma
    · exact rfl
    · refine TwoRuns.bind (onRng_pair _ a) ?_
      rintro xs t t' ⟨k, -, -, k2, -⟩
      refine TwoRuns.bind (Q := fun _ u u' => t = u ∧ t' = u') (TwoRuns.liftE' fun _ _ => ⟨rfl, rfl⟩) ?_
      rintro l _ _ ⟨rfl, rfl⟩
      refine TwoRuns.bind (Q := fun _ u u' => t = u ∧ t' = u') (TwoRuns.assert' fun _ => ⟨rfl, rfl⟩) ?_
      rintro - _ _ ⟨rfl, rfl⟩
      exact ⟨rfl, k, k2⟩
  unfold observeFlux
  refine TwoRuns.get' ?_
  have hk : (s'.heap.selectors y.fluxSel).kind = (s.heap.selectors y.fluxSel).kind :=
    (sameSelector_iff.1 (a.heap.post.pair.same.selectors _)).1
  rw [hk]
  split
  · cases sg with
    | none => exact ⟨rfl, a, rfl⟩
    | some sigma =>
      dsimp only
      split
      · exact TwoRuns.bind (hn _ _ _) fun _ _ _ h => ⟨rfl, h⟩
      · exact TwoRuns.bind (hn _ _ _) fun _ _ _ h => ⟨rfl, h⟩
  · exact ⟨rfl, a, rfl⟩

/-! ### Selections -/

theorem SInv.keep {y : Synth F} {h0 h0' : Heap F G} {s s' t t' : SurvSt F G} (a : SInv y h0 h0' s s')
    (p : Post s.heap s'.heap t.heap t'.heap) (hs : t.heap.samplers = s.heap.samplers)
    (h1 : t.sp = s.sp) (h2 : t.lum = s.lum) (h3 : t'.sp = s'.sp) (h4 : t'.lum = s'.lum) :
    SInv y h0 h0' t t' :=
  ⟨a.heap.keep p (by funext j; simp only [Heap.sampled, hs]), by rw [h1, h3]; exact a.sp,
    by rw [h2, h4]; exact a.lum⟩

theorem LocOk.keep {y : Synth F} {h0 h t : Heap F G} {loc : Loc F} (a : LocOk y h0 h loc)
    (hs : t.samplers = h.samplers) : LocOk y h0 t loc :=
  NamesSel.mono a fun j hj => ⟨⟨hj.1, by simpa [Heap.sampled, hs] using hj.2⟩, by rw [hs]⟩

/-- A mask that `select` would reuse is the same in both heaps. -/
def MaskReady (h h' : Heap F G) (q : Nat) : Prop :=
  (h.selectors q).kind.isDummy = true ∨ (h.selectors q).isSampled = true → Eqat h h' (.mask q)

theorem MaskReady.mono {h h' t t' : Heap F G} {q : Nat} (a : MaskReady h h' q) (p : PostI h h' t t') :
    MaskReady t t' q := by
  rintro (hk | hk)
  · rw [p.kind] at hk; exact p.mono _ (a (.inl hk))
  · rcases p.sel q hk with hk | hk
    · exact p.mono _ (a (.inr hk))
    · exact hk

theorem selectOn_pair (e : SurveyEnv F G) (q n : Nat) {y : Synth F} {h0 h0' : Heap F G} {s s' : SurvSt F G}
    (a : SInv y h0 h0' s s') (d : DataEq s.heap s'.heap q) (hm : MaskReady s.heap s'.heap q) :
    TwoRuns (fun _ t t' => SInv y h0 h0' t t' ∧ t.heap.samplers = s.heap.samplers ∧
      t.heap.selectors q = t'.heap.selectors q ∧ Post s.heap s'.heap t.heap t'.heap)
      (selectOn e q n s) (selectOn e q n s') := by
  unfold selectOn
  refine (TwoRuns.onHeap' (withSelector_pair a.heap.post.pair
    (selSelect_forgets _ _ _ _ _ (d.maskOnly a.heap.post.pair) hm) ?_)).imp ?_
  · intro s
    rw [selSelect_apply]
    have hk := (selDraw_keeps e.world.sel e.world.half e.world.ninety e.world.showProgress n s).1
    cases s.sel.isSampled with
    | true =>
      simp only [if_true]
      split <;> rfl
    | false =>
      simp only [Bool.false_eq_true, if_false]
      cases hd : selDraw e.world.sel e.world.half e.world.ninety e.world.showProgress n s with
      | error err t => rw [hd] at hk; exact hk
      | ok u t =>
        rw [hd] at hk
        dsimp only
        split <;> exact hk
  · rintro - t t' ⟨⟨p, p1, p2, p3⟩, x1, x2, x3, x4⟩
    exact ⟨a.keep p p2 x1 x2 x3 x4, p2, p1, p⟩

omit [LE F] [DecidableLE F] [OfNat F 0] [OfNat F 1] in
theorem Selector.add_congr (g : Selector F G) {q q' : Selector F G} (h : q.selection = q'.selection) :
    g.add q = g.add q' := by
  unfold Selector.add Selector.mask; rw [h]

/-- The selectors of the survey itself agree as far as they are used. -/
structure SelReady (y : Synth F) (h h' : Heap F G) : Prop where
  flux : Eqat h h' (.dist y.fluxSel) ∧ Eqat h h' (.slum y.fluxSel) ∧ Eqat h h' (.obs y.fluxSel) ∧
    Eqat h h' (.sspat y.fluxSel) ∧ MaskReady h h' y.fluxSel
  dist : DataEq h h' y.distSel ∧ MaskReady h h' y.distSel
  spat : ∀ q, y.spatSel = some q → Eqat h h' (.dist q) ∧ Eqat h h' (.slum q) ∧ Eqat h h' (.obs q) ∧
    Eqat h h' (.flux q) ∧ MaskReady h h' q

theorem SelReady.mono {y : Synth F} {h h' t t' : Heap F G} (a : SelReady y h h') (p : PostI h h' t t') :
    SelReady y t t' := by
  obtain ⟨a1, a2, a3, a4, a5⟩ := a.flux
  obtain ⟨⟨b1, b2, b3, b4, b5⟩, b6⟩ := a.dist
  refine ⟨⟨p.mono _ a1, p.mono _ a2, p.mono _ a3, p.mono _ a4, a5.mono p⟩,
    ⟨⟨p.mono _ b1, p.mono _ b2, p.mono _ b3, p.mono _ b4, p.mono _ b5⟩, b6.mono p⟩, fun q hq => ?_⟩
  obtain ⟨c1, c2, c3, c4, c5⟩ := a.spat q hq
  exact ⟨p.mono _ c1, p.mono _ c2, p.mono _ c3, p.mono _ c4, c5.mono p⟩

theorem applyAux_pair (e : SurveyEnv F G) (acc : Selector F G × List F) (kv : String × SecC F) {y : Synth F}
    {h0 h0' : Heap F G} {s s' : SurvSt F G} (a : SInv y h0 h0' s s') (loc : Loc F) (hl : LocOk y h0 s.heap loc)
    (hkv : kv ∈ loc.auxq) :
    TwoRuns (fun _ t t' => s = t ∧ s' = t') (applyAux e acc kv s) (applyAux e acc kv s') := by
  obtain ⟨j, ⟨hj, hsj⟩, hq⟩ := hl kv hkv
  have hm : Eqat s.heap s'.heap (.mask kv.2.selection) := by rw [hq]; exact ((a.heap.ready j hj).done hsj).2
  have hk : (s'.heap.selectors kv.2.selection).kind = (s.heap.selectors kv.2.selection).kind :=
    (sameSelector_iff.1 (a.heap.post.pair.same.selectors _)).1
  unfold applyAux
  refine TwoRuns.get' ?_
  rw [hk]
  split
  · exact ⟨rfl, rfl, rfl⟩
  · refine TwoRuns.bind (Q := fun _ t t' => s = t ∧ s' = t') (TwoRuns.liftE' fun _ _ => ⟨rfl, rfl⟩) ?_
    rintro prob _ _ ⟨rfl, rfl⟩
    rw [← Selector.add_congr acc.1 hm]
    refine TwoRuns.bind (Q := fun _ t t' => s = t ∧ s' = t') (TwoRuns.liftE' fun _ _ => ⟨rfl, rfl⟩) ?_
    rintro sel _ _ ⟨rfl, rfl⟩
    exact ⟨rfl, rfl, rfl⟩

theorem applySpatial_pair (e : SurveyEnv F G) (n : Nat) (v : Spatial F) (glob : Selector F G) {y : Synth F}
    {h0 h0' : Heap F G} {s s' : SurvSt F G} (a : SInv y h0 h0' s s') (hr : SelReady y s.heap s'.heap) :
    TwoRuns (fun _ t t' => SInv y h0 h0' t t' ∧ SelReady y t.heap t'.heap)
      (applySpatial e y n v glob s) (applySpatial e y n v glob s') := by
  unfold applySpatial
  cases hq : y.spatSel with
  | none => exact ⟨rfl, a, hr⟩
  | some q =>
    refine TwoRuns.get' ?_
    have hs := sameSelector_iff.1 (a.heap.post.pair.same.selectors q)
    rw [hs.1]
    split
    · refine TwoRuns.bind (TwoRuns.onHeap' (Q := fun _ t t' => Post s.heap s'.heap t t' ∧
          t.samplers = s.heap.samplers ∧ Eqat t t' (.sspat q)) ?_) ?_
      · refine TwoRuns.modify' ⟨post_modSelector a.heap.post.pair q _ _ ?_ id id id id id (fun _ => rfl) rfl .inl,
          rfl, by simp [Eqat]⟩
        rw [sameSelector_iff]; simp only; grind
      · rintro - t t' ⟨⟨p, p2, p3⟩, x1, x2, x3, x4⟩
        have a1 := a.keep p p2 x1 x2 x3 x4
        have r1 := hr.mono p.toI
        obtain ⟨c1, c2, c3, c4, c5⟩ := r1.spat q hq
        refine TwoRuns.bind (selectOn_pair e q n a1 ⟨c1, c2, c3, c4, p3⟩ c5) ?_
        rintro - u u' ⟨a2, k1, k2, k3⟩
        refine TwoRuns.get' ?_
        rw [← k2]
        exact TwoRuns.liftE' fun _ _ => ⟨a2, r1.mono k3.toI⟩
    · exact rfl

theorem applySelections_pair (e : SurveyEnv F G) (n : Nat) (v : Spatial F) (fo : List F) (loc : Loc F)
    {y : Synth F} {h0 h0' : Heap F G} {s s' : SurvSt F G} (a : SInv y h0 h0' s s')
    (hl : LocOk y h0 s.heap loc) (hr : SelReady y s.heap s'.heap) :
    TwoRuns (fun _ t t' => SInv y h0 h0' t t' ∧ SelReady y t.heap t'.heap)
      (applySelections e y n v fo loc s) (applySelections e y n v fo loc s') := by
  unfold applySelections
  refine TwoRuns.bind (TwoRuns.onHeap' (Q := fun _ t t' => Post s.heap s'.heap t t' ∧
      t.samplers = s.heap.samplers ∧ Eqat t t' (.flux y.fluxSel)) ?_) ?_
  · have hs := sameSelector_iff.1 (a.heap.post.pair.same.selectors y.fluxSel)
    refine TwoRuns.modify' ⟨post_modSelector a.heap.post.pair y.fluxSel _ _ ?_ id id id id (fun _ => rfl) id rfl .inl,
      rfl, by simp [Eqat]⟩
    rw [sameSelector_iff]; simp only; grind
  rintro - t t' ⟨⟨p, p2, p3⟩, x1, x2, x3, x4⟩
  have a1 := a.keep p p2 x1 x2 x3 x4
  have r1 := hr.mono p.toI
  have l1 := hl.keep p2
  obtain ⟨c1, c2, c3, c4, c5⟩ := r1.flux
  refine TwoRuns.bind (selectOn_pair e y.fluxSel n a1 ⟨c1, c2, c3, p3, c4⟩ c5) ?_
  rintro - u u' ⟨a2, k1, k2, k3⟩
  have l2 := l1.keep k1
  have r2 := r1.mono k3.toI
  refine TwoRuns.bind (Q := fun _ t t' => u = t ∧ u' = t') ?_ ?_
  · exact TwoRuns.foldPy' (I := fun _ t t' => u = t ∧ u' = t') _ ⟨rfl, rfl⟩ fun kv hkv acc t t' h => by
      obtain ⟨rfl, rfl⟩ := h
      exact applyAux_pair e acc kv a2 loc l2 hkv
  rintro ⟨auxSel, prob⟩ _ _ ⟨rfl, rfl⟩
  refine TwoRuns.bind (Q := fun _ t t' => u = t ∧ u' = t') (TwoRuns.liftE' fun _ _ => ⟨rfl, rfl⟩) ?_
  rintro glob _ _ ⟨rfl, rfl⟩
  refine TwoRuns.get' ?_
  rw [← k2]
  refine TwoRuns.bind (Q := fun _ t t' => u = t ∧ u' = t') (TwoRuns.liftE' fun _ _ => ⟨rfl, rfl⟩) ?_
  rintro glob _ _ ⟨rfl, rfl⟩
  exact TwoRuns.bind (applySpatial_pair e n v glob a2 r2) fun _ _ _ h => ⟨rfl, h⟩

/-! ### The graph -/

theorem graphSecs_pair {h h' : Heap F G} (p : Pair h h') : ∀ (k i : Nat) (nm : String) (g g' : Graph),
    TwoRuns (fun _ _ _ => True) (graphSecs h k i nm g) (graphSecs h' k i nm g')
  | 0, _, _, _, _ => rfl
  | k + 1, i, nm, g, g' => by
    obtain ⟨-, -, a3, -, -, -, -, -, a9, -⟩ := p.sampler i
    unfold graphSecs
    rw [a3, a9]
    split
    · refine TwoRuns.forEach' (I := fun _ _ => True) _ trivial ?_
      intro x _ g g' _
      obtain ⟨c1, -, -, -, -, c6, -⟩ := p.sampler x.2
      have c13 : (h'.samplers x.2).obsName = (h.samplers x.2).obsName :=
        (sameSampler_iff.1 (p.same.samplers x.2)).2.1
      refine TwoRuns.bind (Q := fun _ _ _ => True) (TwoRuns.modify' trivial) fun _ g g' _ => ?_
      rw [c1, c6, c13]
      have hrest : ∀ g g', TwoRuns (fun _ _ _ => True)
          ((if (h.samplers x.2).usesDistance = true then (do raise .attribute; graphSecs h k x.2 x.1)
            else graphSecs h k x.2 x.1 : Py Graph Unit) g)
          ((if (h.samplers x.2).usesDistance = true then (do raise .attribute; graphSecs h' k x.2 x.1)
            else graphSecs h' k x.2 x.1 : Py Graph Unit) g') := by
        intro g g'
        split
        · exact rfl
        · exact graphSecs_pair p k x.2 x.1 g g'
      cases (h.samplers x.2).isObserved
      · exact hrest g g'
      · exact TwoRuns.bind (Q := fun _ _ _ => True) (TwoRuns.modify' trivial) fun _ g g' _ => hrest g g'
    · exact ⟨rfl, trivial⟩

theorem graphAuxSec_pair {h h' : Heap F G} (p : Pair h h') (fuel : Nat) (y : Synth F) (k : String)
    (x : String × Nat) (g g' : Graph) :
    TwoRuns (fun _ _ _ => True) (graphAuxSec fuel y h k x g) (graphAuxSec fuel y h' k x g') := by
  obtain ⟨c1, -, -, -, -, c6, -⟩ := p.sampler x.2
  have c13 : (h'.samplers x.2).obsName = (h.samplers x.2).obsName :=
    (sameSampler_iff.1 (p.same.samplers x.2)).2.1
  unfold graphAuxSec
  rw [c1, c6, c13]
  refine TwoRuns.bind (Q := fun _ _ _ => True) (TwoRuns.modify' trivial) fun _ g g' _ => ?_
  cases (h.samplers x.2).usesDistance <;> cases (h.samplers x.2).isObserved
  · exact graphSecs_pair p fuel _ _ _ _
  · exact TwoRuns.bind (Q := fun _ _ _ => True) (TwoRuns.modify' trivial) fun _ g g' _ =>
      graphSecs_pair p fuel _ _ _ _
  · exact TwoRuns.bind (Q := fun _ _ _ => True) (TwoRuns.modify' trivial) fun _ g g' _ =>
      graphSecs_pair p fuel _ _ _ _
  · exact TwoRuns.bind (Q := fun _ _ _ => True) (TwoRuns.modify' trivial) fun _ g g' _ =>
      TwoRuns.bind (Q := fun _ _ _ => True) (TwoRuns.modify' trivial) fun _ g g' _ =>
        graphSecs_pair p fuel _ _ _ _

theorem graphAux_pair {h h' : Heap F G} (p : Pair h h') (fuel : Nat) (y : Synth F)
    (x : String × Nat) (g g' : Graph) :
    TwoRuns (fun _ _ _ => True) (graphAux fuel y h x g) (graphAux fuel y h' x g') := by
  obtain ⟨c1, -, c3, -, c5, c6, -⟩ := p.sampler x.2
  have c13 : (h'.samplers x.2).obsName = (h.samplers x.2).obsName :=
    (sameSampler_iff.1 (p.same.samplers x.2)).2.1
  have hrest : ∀ g g', TwoRuns (fun _ _ _ => True)
      (forEach (h.samplers x.2).secondaries (graphAuxSec fuel y h x.1) g)
      (forEach (h.samplers x.2).secondaries (graphAuxSec fuel y h' x.1) g') := fun g g' =>
    TwoRuns.forEach' (I := fun _ _ => True) _ trivial fun z _ g g' _ => graphAuxSec_pair p fuel y x.1 z g g'
  unfold graphAux
  rw [c1, c3, c5, c6, c13]
  refine TwoRuns.bind (Q := fun _ _ _ => True) (TwoRuns.assert' fun _ => trivial) fun _ g g' _ => ?_
  refine TwoRuns.bind (Q := fun _ _ _ => True) (TwoRuns.modify' trivial) fun _ g g' _ => ?_
  cases (h.samplers x.2).isObserved
  · exact hrest g g'
  · refine TwoRuns.bind (Q := fun _ _ _ => True) (TwoRuns.modify' trivial) fun _ g g' _ => ?_
    cases (h.samplers x.2).usesDistance
    · exact hrest g g'
    · exact TwoRuns.bind (Q := fun _ _ _ => True) (TwoRuns.modify' trivial) fun _ g g' _ => hrest g g'

theorem buildGraph_pair {h h' : Heap F G} (p : Pair h h') (fuel : Nat) (y : Synth F) (g g' : Graph) :
    TwoRuns (fun _ _ _ => True) (buildGraph fuel y h g) (buildGraph fuel y h' g') := by
  have hrest : ∀ g g', TwoRuns (fun _ _ _ => True)
      (forEach y.aux (graphAux fuel y h) g) (forEach y.aux (graphAux fuel y h') g') := fun g g' =>
    TwoRuns.forEach' (I := fun _ _ => True) _ trivial fun z _ g g' _ => graphAux_pair p fuel y z g g'
  unfold buildGraph
  refine TwoRuns.bind (Q := fun _ _ _ => True) (TwoRuns.modify' trivial) fun _ g g' _ => ?_
  cases y.derived with
  | none =>
    cases y.lumName with
    | none => exact rfl
    | some l => exact TwoRuns.bind (Q := fun _ _ _ => True) (TwoRuns.modify' trivial) fun _ g g' _ => hrest g g'
  | some d =>
    refine TwoRuns.bind (Q := fun _ _ _ => True) ?_ fun _ g g' _ => hrest g g'
    obtain ⟨c1, -, c3, -, -, -, -, c8, -⟩ := p.sampler d
    have hloop : ∀ g g', TwoRuns (fun _ _ _ => True)
        (forEach (h.samplers d).secondaries (fun p => do
          modify fun g => (g.addNode p.1 none).addEdge p.1 (h.samplers d).name
          graphSecs h fuel p.2 p.1) g)
        (forEach (h.samplers d).secondaries (fun p => do
          modify fun g => (g.addNode p.1 none).addEdge p.1 (h.samplers d).name
          graphSecs h' fuel p.2 p.1) g') := fun g g' =>
      TwoRuns.forEach' (I := fun _ _ => True) _ trivial fun z _ g g' _ =>
        TwoRuns.bind (Q := fun _ _ _ => True) (TwoRuns.modify' trivial) fun _ g g' _ =>
          graphSecs_pair p fuel _ _ _ _
    unfold graphDerived
    rw [c1, c3, c8]
    refine TwoRuns.bind (Q := fun _ _ _ => True) (TwoRuns.modify' trivial) fun _ g g' _ => ?_
    cases (h.samplers d).usesDistance
    · exact hloop g g'
    · exact TwoRuns.bind (Q := fun _ _ _ => True) (TwoRuns.modify' trivial) fun _ g g' _ => hloop g g'

/-! ### The whole survey -/

/-- The same configuration, except for values left over from earlier surveys. -/
structure Spec.SameSetup (s s' : SurvSt F G) : Prop where
  heap : ObjectsUpToLeft s.heap s'.heap
  sp : s.sp.params = s'.sp.params
  lum : s.lum.params = s'.lum.params

/-- Code that ignores values left over from earlier surveys. -/
structure Spec.EnvForgets (e : SurveyEnv F G) (y : Synth F) : Prop where
  spatial : SpatialForgets e.spatial
  lum : LumForgets e.lum
  toDict : ∀ s s', SameSetup s s' → e.toDict y s = e.toDict y s'

theorem buildPopulation_pair {y : Synth F} (e : SurveyEnv F G) (he : EnvForgets e y) (d : Drawn F G)
    {h0 h0' : Heap F G} {s s' : SurvSt F G} (a : SInv y h0 h0' s s') (hr : SelReady y s.heap s'.heap) :
    TwoRuns (fun _ _ _ => True) (buildPopulation e y d s) (buildPopulation e y d s') := by
  unfold buildPopulation
  refine TwoRuns.bind (Q := fun _ t t' => s = t ∧ s' = t') (TwoRuns.liftE' fun _ _ => ⟨rfl, rfl⟩) ?_
  rintro gm _ _ ⟨rfl, rfl⟩
  refine TwoRuns.bind (selectOn_pair e y.distSel (countTrue gm) a hr.dist.1 hr.dist.2) ?_
  rintro - u u' ⟨a2, k1, k2, k3⟩
  refine TwoRuns.get' ?_
  rw [← k2]
  refine TwoRuns.bind (Q := fun _ t t' => u = t ∧ u' = t') (TwoRuns.liftE' fun _ _ => ⟨rfl, rfl⟩) ?_
  rintro dm _ _ ⟨rfl, rfl⟩
  refine TwoRuns.bind (Q := fun _ t t' => u = t ∧ u' = t') (TwoRuns.liftE' fun _ _ => ⟨rfl, rfl⟩) ?_
  rintro sel _ _ ⟨rfl, rfl⟩
  refine TwoRuns.bind (Q := fun _ t t' => u = t ∧ u' = t') (TwoRuns.liftE' fun _ _ => ⟨rfl, rfl⟩) ?_
  rintro known _ _ ⟨rfl, rfl⟩
  refine TwoRuns.bind (Q := fun _ t t' => u = t ∧ u' = t') (TwoRuns.liftE' fun _ _ => ⟨rfl, rfl⟩) ?_
  rintro - _ _ ⟨rfl, rfl⟩
  refine TwoRuns.bind (onSpatial_pair a2 (onParams_pair _ a2.sp a2.heap.post.pair.rng) fun _ _ _ h => ⟨h.1, h.2.1⟩) ?_
  rintro rMax t t' ⟨a3, -⟩
  refine TwoRuns.bind (Q := fun _ z z' => SameSetup z z') ?_ ?_
  · have := buildGraph_pair a2.heap.post.pair e.frames y t.graph t'.graph
    unfold onGraph
    cases h1 : buildGraph e.frames y u.heap t.graph <;>
      cases h2 : buildGraph e.frames y u'.heap t'.graph <;> rw [h1, h2] at this
    · exact ⟨this.1, a3.heap.post.pair.same, a3.sp, a3.lum⟩
    · exact this.elim
    · exact this.elim
    · exact this
  · rintro - z z' hz
    refine TwoRuns.get' ?_
    rw [← he.toDict z z' hz]
    refine TwoRuns.bind (Q := fun _ t t' => z = t ∧ z' = t') (TwoRuns.liftE' fun _ _ => ⟨rfl, rfl⟩) ?_
    rintro ps _ _ ⟨rfl, rfl⟩
    exact TwoRuns.liftE' fun _ _ => trivial

/-- The values that matter agree although they may be left over: those that no survey
recomputes before using them. -/
structure Spec.Alike (y : Synth F) (h h' : Heap F G) : Prop where
  /-- samplers of the survey -/
  samplers : ∀ j, ReachFrom h y.roots j → ReadyW (GetsLuminosity y h) h h' j
  /-- the derived luminosity sampler -/
  derived : ∀ d, y.derived = some d → Eqat h h' (.lum d)
  /-- selectors of the survey -/
  selectors : SelReady y h h'

theorem drawSurvey_pair {y : Synth F} (e : SurveyEnv F G) (he : EnvForgets e y) (a : SurveyArgs F) {s s' : SurvSt F G}
    (hc : SameSetup s s') (ha : Alike y s.heap s'.heap) (hr : Rooted y s.heap)
    (hd : DownClosed s.heap.children s.heap.sampled)
    (hseed : e.seed y.seed s'.heap.rng = e.seed y.seed s.heap.rng) :
    TwoRuns (fun _ _ _ => True) (drawSurvey e y a s) (drawSurvey e y a s') := by
  unfold drawSurvey drawAll
  simp only [bind_assoc]
  refine TwoRuns.get' ?_
  -- the states after seeding
  cases hg : e.seed y.seed s.heap.rng with
  | error err =>
    simp only [bind_apply, onRng, hseed, hg]
    exact rfl
  | ok g =>
    rw [bind_apply, bind_apply]
    simp only [onRng, hseed, hg]
    rw [hc.sp]
    generalize hh0 : ({ s.heap with rng := g } : Heap F G) = h0
    generalize hh0' : ({ s'.heap with rng := g } : Heap F G) = h0'
    have e1 : h0.samplers = s.heap.samplers := by rw [← hh0]
    have e2 : h0'.samplers = s'.heap.samplers := by rw [← hh0']
    have e3 : h0.selectors = s.heap.selectors := by rw [← hh0]
    have e4 : h0'.selectors = s'.heap.selectors := by rw [← hh0']
    have e5 : h0.rng = h0'.rng := by rw [← hh0, ← hh0']
    have hp : Pair h0 h0' := ⟨⟨fun i => by rw [e1, e2]; exact hc.heap.samplers i,
      fun q => by rw [e3, e4]; exact hc.heap.selectors q⟩, e5⟩
    have ech : h0.children = s.heap.children := by funext j; simp only [Heap.children, e1]
    have esm : h0.sampled = s.heap.sampled := by funext j; simp only [Heap.sampled, e1]
    have erf : ReachFrom h0 y.roots = ReachFrom s.heap y.roots := by
      funext j; simp only [ReachFrom, ech]
    have egl : GetsLuminosity y h0 = GetsLuminosity y s.heap := by
      funext j; simp only [GetsLuminosity, e1, erf, ech]
    have eqa : Eqat h0 h0' = Eqat s.heap s'.heap := by
      funext f; cases f <;> simp only [Eqat, e1, e2, e3, e4]
    have hr0 : Rooted y h0 := ⟨by rw [erf, ech]; exact hr.primary, hr.separate⟩
    have hi0 : HInv y h0 h0' h0 h0' := by
      refine ⟨PostI.refl hp, ?_, by rw [ech, esm]; exact hd⟩
      intro j hj
      rw [erf] at hj
      have k := ha.samplers j hj
      rw [egl]
      refine ⟨?_, ?_, ?_⟩
      · rw [esm, e1, e3, eqa]; exact k.rest
      · rw [esm, e1, eqa]; exact k.lum
      · rw [esm, e1, eqa]; exact k.done
    have hs0 : SelReady y h0 h0' := by
      have k := ha.selectors
      have em : ∀ q, MaskReady s.heap s'.heap q → MaskReady h0 h0' q := by
        intro q; unfold MaskReady; rw [eqa, e3]; exact id
      obtain ⟨f1, f2, f3, f4, f5⟩ := k.flux
      obtain ⟨g1, g2⟩ := k.dist
      refine ⟨by rw [eqa]; exact ⟨f1, f2, f3, f4, em _ f5⟩, ⟨by unfold DataEq at *; rw [eqa]; exact g1, em _ g2⟩, ?_⟩
      intro q hq
      obtain ⟨p1, p2, p3, p4, p5⟩ := k.spat q hq
      rw [eqa]; exact ⟨p1, p2, p3, p4, em _ p5⟩
    have hi : SInv y h0 h0' { s with heap := h0 } { s' with heap := h0' } := ⟨hi0, hc.sp, hc.lum⟩
    refine TwoRuns.bind (countObjects_pair e a.nSamples a.normalize hi) fun n t t' k => ?_
    refine TwoRuns.bind (drawPositions_pair e he.spatial n a.normalize k) fun vp t t' k => ?_
    obtain ⟨v, prob⟩ := vp
    refine TwoRuns.bind (drawLuminosities_pair e he.lum n v _ k hr0 (fun kv hkv => by cases hkv) ?_) ?_
    · intro d hd
      exact k.heap.post.mono _ (by rw [eqa]; exact ha.derived d hd)
    rintro ⟨lums, loc⟩ t t' ⟨k, hl⟩
    refine TwoRuns.bind (Q := fun _ u u' => t = u ∧ t' = u') (TwoRuns.liftE' fun _ _ => ⟨rfl, rfl⟩) ?_
    rintro fluxes _ _ ⟨rfl, rfl⟩
    refine TwoRuns.bind (Q := fun r t t' => SInv y h0 h0' t t' ∧ LocOk y h0 t.heap r) ?_ ?_
    · exact TwoRuns.foldPy' (I := fun r t t' => SInv y h0 h0' t t' ∧ LocOk y h0 t.heap r) _ ⟨k, hl⟩
        fun kv hkv loc t t' h => auxStep_pair e n lums v loc kv h.1 hr0 hkv h.2
    rintro loc t t' ⟨k, hl⟩
    refine TwoRuns.bind (observeFlux_pair e n _ _ fluxes k) ?_
    rintro ⟨fo, sigma⟩ u u' ⟨k, hsm⟩
    have hl := hl.keep hsm
    refine TwoRuns.bind (applySelections_pair e n v fo loc k hl (hs0.mono k.heap.post)) ?_
    rintro ⟨glob, prob⟩ t t' ⟨k, hsr⟩
    exact buildPopulation_pair e he _ k hsr

end
end Popsynth
