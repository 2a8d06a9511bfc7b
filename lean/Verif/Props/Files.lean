import Verif.Lemmas.Files
import Verif.Props.Settings

/-!
# Files and directories at import (C101)
-/

set_option autoImplicit false
set_option linter.unusedSectionVars false

namespace Popsynth
open Files
variable {D V : Type}

section
variable {deny : FPath → Bool} {home : FPath} {blank text : D} {s₀ : Disk D}
  {Re : Disk D → Disk D → Prop} {E : ImportErr → Prop}
  (hr : ∀ s, Re s s) (ht : ∀ a b c, Re a b → Re b c → Re a c)
  (hRe : ∀ s s', Re s s' → Chg deny home blank text s₀ s s')
  (hE : ¬ Spec.Room deny home s₀ → ∀ e, E (.os e))
  {K : Disk D → Prop} (hK : ∀ s s', Re s s' → K s → K s')

local notation "WP" => wp deny blank Re (Chg deny home blank text s₀) E
local notation "INV" => FromDisk deny home blank text s₀

include hRe hE hK

theorem wp_orDir (existOk : Bool) (p : FPath) (e : OsErr) (Q : Disk D → Unit → Prop) (s : Disk D)
    (hi : INV s) (hk : K s) (hc : s p = some .dir ∧ e = .fileExists ∨ ¬ Spec.Room deny home s₀)
    (hX : existOk = false → s p = some .dir → E (.os .fileExists))
    (hQ : ∀ s', INV s' → Retains s s' → K s' → s' p = some .dir → Q s' ()) :
    WP (orDir existOk p e) Q s := by
  unfold orDir
  cases existOk with
  | false =>
    simp only [Bool.false_eq_true, if_false]
    rcases hc with ⟨h1, rfl⟩ | h1
    · exact hX rfl h1
    · exact hE h1 _
  | true =>
    simp only [if_true]
    intro s' hs
    refine ⟨fun h => ⟨h, Retains.refl _⟩, ?_⟩
    have k1 := hRe _ _ hs hi
    have aux : s' p ≠ some .dir → E (.os e) := by
      intro h
      rcases hc with ⟨h1, rfl⟩ | h1
      · exact absurd (k1.2.1 p h1) h
      · exact hE h1 _
    simp only [answer]
    rcases h : s' p with - | (- | d)
    · exact aux (by simp [h])
    · intro s'' hs'
      have k2 := hRe _ _ hs' k1.1
      exact hQ s'' k2.1 (k1.2.trans k2.2) (hK _ _ hs' (hK _ _ hs hk)) (k2.2.1 p h)
    · exact aux (by simp [h])

theorem wp_mkdir1 (existOk : Bool) (c : String) (p : FPath) (hp : Spec.OwnDir home (c :: p))
    (hK' : existOk = true → ∀ s, s (c :: p) = none → K s → K (put s (c :: p) .dir))
    (Q : Disk D → Unit → Prop) (s : Disk D) (hi : INV s) (hk : K s) (hd : s p = some .dir)
    (hX : existOk = false → ∀ s, K s → s (c :: p) = some .dir → E (.os .fileExists))
    (hQ : ∀ s', INV s' → Retains s s' → s' (c :: p) = some .dir →
      (existOk = true → K s') → Q s' ()) :
    WP (mkdir1 existOk (c :: p)) Q s := by
  intro s' hs
  have k1 := hRe _ _ hs hi
  have hk1 := hK _ _ hs hk
  rcases mkdir_cases k1.1 hp with ⟨e, h1, h2, h3⟩ | ⟨x, e, h1, h2⟩ | ⟨-, h2⟩
  · rw [e]
    have := put_inv k1.1 (.dir hp) h1 h2 h3
    refine ⟨fun _ => this, ?_⟩
    intro s'' hs'
    have k2 := hRe _ _ hs' this.1
    exact hQ s'' k2.1 (k1.2.trans (this.2.trans k2.2)) (k2.2.1 _ (put_at ..))
      fun hx => hK _ _ hs' (hK' hx _ h1 hk1)
  · rw [e]
    refine ⟨fun h => ⟨h, Retains.refl _⟩, ?_⟩
    have := wp_orDir hRe hE hK existOk (c :: p) x Q s' k1.1 hk1 h2 (fun h => hX h s' hk1)
      (fun s'' a b k d => hQ s'' a (k1.2.trans b) d fun _ => k)
    cases x with
    | fileNotFound => exact absurd rfl h1
    | fileExists => exact this
    | notADirectory => exact this
    | isADirectory => exact this
    | permission => exact this
  · rw [k1.2.1 p hd] at h2; cases h2

include hr in
theorem wp_mkdirs (existOk : Bool) (p : FPath) (hp : Spec.OwnDir home p)
    (hK' : ∀ s q, q <:+ p → s q = none → (existOk = false → q ≠ p) → K s → K (put s q .dir))
    (Q : Disk D → Unit → Prop) (s : Disk D) (hi : INV s) (hk : K s)
    (hX : existOk = false → ∀ s, K s → s p = some .dir → E (.os .fileExists))
    (hQ : ∀ s', INV s' → Retains s s' → s' p = some .dir → (existOk = true → K s') → Q s' ()) :
    WP (mkdirs existOk p) Q s := by
  induction p generalizing existOk Q s with
  | nil =>
    intro s' hs
    have k1 := hRe _ _ hs hi
    have hk1 := hK _ _ hs hk
    have e : answer deny blank s' (.mkdir []) = (.err .fileExists, s') := by
      simp [answer, k1.1.1.root]
    rw [e]
    refine ⟨fun h => ⟨h, Retains.refl _⟩, ?_⟩
    exact wp_orDir hRe hE hK existOk [] .fileExists Q s' k1.1 hk1 (.inl ⟨k1.1.1.root, rfl⟩)
      (fun h => hX h s' hk1) (fun s'' a b k d => hQ s'' a (k1.2.trans b) d fun _ => k)
  | cons c p ih =>
    intro s' hs
    have k1 := hRe _ _ hs hi
    have hk1 := hK _ _ hs hk
    rcases mkdir_cases k1.1 hp with ⟨e, h1, h2, h3⟩ | ⟨x, e, h1, h2⟩ | ⟨e, h2⟩
    · rw [e]
      have := put_inv k1.1 (.dir hp) h1 h2 h3
      refine ⟨fun _ => this, ?_⟩
      intro s'' hs'
      have k2 := hRe _ _ hs' this.1
      exact hQ s'' k2.1 (k1.2.trans (this.2.trans k2.2)) (k2.2.1 _ (put_at ..)) fun hx =>
        hK _ _ hs' (hK' _ _ List.suffix_rfl h1 (by simp [hx]) hk1)
    · rw [e]
      refine ⟨fun h => ⟨h, Retains.refl _⟩, ?_⟩
      have := wp_orDir hRe hE hK existOk (c :: p) x Q s' k1.1 hk1 h2 (fun h => hX h s' hk1)
        (fun s'' a b k d => hQ s'' a (k1.2.trans b) d fun _ => k)
      cases x with
      | fileNotFound => exact absurd rfl h1
      | fileExists => exact this
      | notADirectory => exact this
      | isADirectory => exact this
      | permission => exact this
    · rw [e]
      refine ⟨fun h => ⟨h, Retains.refl _⟩, ?_⟩
      have hp' : Spec.OwnDir home p := hp.imp (List.suffix_cons c p).trans (List.suffix_cons c p).trans
      have hne : ∀ q, q <:+ p → q ≠ c :: p := fun q hq e => by
        have := hq.length_le
        rw [e, List.length_cons] at this
        omega
      refine wp_bind hr _ _ _ _ (ih true hp' (fun s q hq h0 _ hs => hK' s q
        (hq.trans (List.suffix_cons c p)) h0 (fun _ => hne q hq) hs) _ _ k1.1 hk1 (by simp) ?_)
      intro s2 i2 b2 d2 k2
      refine wp_mkdir1 hRe hE hK existOk c p hp (fun hx s h0 h => hK' s _ List.suffix_rfl h0 (by simp [hx]) h)
        Q s2 i2 (k2 rfl) d2 hX fun s3 i3 b3 d3 k3 => hQ s3 i3 (k1.2.trans (b2.trans b3)) d3 k3

omit hK

section logs
variable {quiet : Prop} (hq : quiet → ∀ s s', Re s s' → s' = s) (hE' : ¬ quiet → E (.os .fileExists))
include hr hq hE'

theorem wp_getLogDir (Q : Disk D → FPath → Prop) (s : Disk D) (hi : INV s)
    (hQ : ∀ s', INV s' → Retains s s' → s' (logDir home) = some .dir ∨ ¬ Spec.Room deny home s₀ →
      Q s' (logDir home)) :
    WP (getLogDir home) Q s := by
  have hp : Spec.OwnDir home (logDir home) := .inr List.suffix_rfl
  intro s' hs
  have k1 := hRe _ _ hs hi
  refine ⟨fun h => ⟨h, Retains.refl _⟩, ?_⟩
  simp only [answer]
  rcases h : s' (logDir home) with - | n
  · refine wp_bind hr _ _ _ _ (wp_mkdirs hr hRe hE (K := fun s => quiet → s (logDir home) = none)
      (fun s s' h1 h2 h3 => by rw [hq h3 _ _ h1]; exact h2 h3) false _ hp
      (fun s q hq' h0 hne h1 h2 => by rw [put_elsewhere _ _ (fun e => hne rfl e.symm)]; exact h1 h2)
      _ _ k1.1 (fun _ => h) (fun _ s hs hd => hE' fun hx => by rw [hs hx] at hd; cases hd) ?_)
    intro s2 i2 b2 d2 _
    intro s3 h3
    have k3 := hRe _ _ h3 i2
    exact hQ s3 k3.1 (k1.2.trans (b2.trans k3.2)) (.inl (k3.2.1 _ d2))
  · intro s2 h2
    have k2 := hRe _ _ h2 k1.1
    refine hQ s2 k2.1 (k1.2.trans k2.2) ?_
    cases n with
    | dir => exact .inl (k2.2.1 _ h)
    | file d =>
      refine .inr fun hx => ?_
      rcases (k1.1.room hx).dirs _ hp with e | ⟨e, -⟩ <;> rw [h] at e <;> cases e

theorem wp_openLog (name : String) (hl : Spec.OwnLog home (name :: logDir home))
    (Q : Disk D → Unit → Prop) (s : Disk D) (hi : INV s)
    (hQ : ∀ s' d, INV s' → Retains s s' → s' (name :: logDir home) = some (.file d) → Q s' ()) :
    WP (openLog home name) Q s := by
  refine wp_bind hr _ _ _ _ (wp_bind hr _ _ _ _ (wp_getLogDir hr hRe hE hq hE' _ _ hi ?_))
  intro s1 i1 b1 d1 s2 h2 s3 h3
  have k2 := hRe _ _ h2 i1
  have k3 := hRe _ _ h3 k2.1
  have d3 : s3 (logDir home) = some .dir ∨ ¬ Spec.Room deny home s₀ :=
    d1.imp (fun h => k3.2.1 _ (k2.2.1 _ h)) id
  have b3 := b1.trans (k2.2.trans k3.2)
  have fin : ∀ s4 s5 d, FromDisk deny home blank text s₀ s4 ∧ Retains s3 s4 → Re s4 s5 →
      s4 (name :: logDir home) = some (.file d) → Q s5 () := by
    intro s4 s5 d i4 h5 e4
    have k5 := hRe _ _ h5 i4.1
    obtain ⟨d', e5⟩ := k5.2.2 _ _ e4
    exact hQ s5 d' k5.1 (b3.trans (i4.2.trans k5.2)) e5
  simp only [answer]
  rcases h : s3 (name :: logDir home) with - | (- | d)
  · rcases make_cases (deny := deny) (s := s3) (c := name) (p := logDir home) (.file blank) with
      ⟨e, h1, h2⟩ | ⟨⟨x, e⟩, h1⟩
    · have := put_inv k3.1 (.log hl) h h1 h2
      simp only [e]
      refine ⟨fun _ => this, ?_⟩
      intro s5 h5
      exact fin _ s5 blank this h5 (put_at ..)
    · simp only [e]
      refine ⟨fun h => ⟨h, Retains.refl _⟩, hE (fun hx => ?_) _⟩
      rcases d3 with d3 | d3
      · rcases (k3.1.room hx).files _ (.inr hl) with ⟨d, e⟩ | ⟨-, e⟩
        · rw [h] at e; cases e
        · rw [List.tail_cons, h1 d3] at e; cases e
      · exact d3 hx
  · refine ⟨fun h => ⟨h, Retains.refl _⟩, hE (fun hx => ?_) _⟩
    rcases (k3.1.room hx).files _ (.inr hl) with ⟨d, e⟩ | ⟨e, -⟩ <;> rw [h] at e <;> cases e
  · refine ⟨fun h => ⟨h, Retains.refl _⟩, ?_⟩
    intro s5 h5
    exact fin s3 s5 d ⟨k3.1, Retains.refl _⟩ h5 h

end logs

variable {conv : V → V → Except Err V} {defaults : CTree V} {load : D → Except Err (CTree V)}
  (hb : (load blank >>= mergeConfig conv defaults) = .ok defaults)
  (hw : (load text >>= mergeConfig conv defaults) = .ok defaults)

variable (conv defaults load home s₀) in
/-- The configuration is the defaults, with the user's file merged if there was one. -/
def Spec.Settled (r : Except Err (CTree V)) : Prop :=
  (∃ d, s₀ (Spec.ownConfig home) = some (.file d) ∧ r = (load d >>= mergeConfig conv defaults)) ∨
  (∀ d, s₀ (Spec.ownConfig home) ≠ some (.file d)) ∧ r = .ok defaults

variable (hE2 : ∀ e, Spec.Settled home s₀ conv defaults load (.error e) → E (.config e))

include hr hE2 hb hw in
theorem wp_getConfig (Q : Disk D → CTree V → Prop) (s : Disk D) (hi : INV s)
    (hQ : ∀ s' d c, INV s' → Retains s s' → s' (Spec.ownConfig home) = some (.file d) →
      Spec.Settled home s₀ conv defaults load (.ok c) → Q s' c) :
    WP (getConfig conv defaults load text home) Q s := by
  intro s1 h1
  have k1 := hRe _ _ h1 hi
  refine ⟨fun h => ⟨h, Retains.refl _⟩, ?_⟩
  have hcf : configFile home = Spec.ownConfig home := rfl
  have absent : (∀ d, s1 (Spec.ownConfig home) ≠ some (.file d)) →
      WP ((mkdirs true (configDir home)).bind fun _ =>
        .ask (.openW (configFile home)) (orRaise
          (.ask (.openW (configFile home)) (orRaise
            (.ask (.write (configFile home) text) (orRaise (.ret defaults))))))) Q s1 := by
    intro hno
    have h0 : ∀ d, s₀ (Spec.ownConfig home) ≠ some (.file d) := by
      intro d hd
      rcases k1.1.2 (Spec.ownConfig home) with e | ⟨e, -⟩
      · exact hno d (e.trans hd)
      · rw [hd] at e; cases e
    have hcon : Spec.Settled home s₀ conv defaults load (.ok defaults) := .inr ⟨h0, rfl⟩
    -- opening for writing
    have op : ∀ (s : Disk D) (k : Prog D (CTree V)), INV s → s (configDir home) = some .dir →
        (∀ s', INV s' → Retains s s' → (∃ d, s' (Spec.ownConfig home) = some (.file d)) → WP k Q s') →
        (WP (.ask (.openW (configFile home)) (orRaise k)) Q s) ∧
        ((∃ d, s (Spec.ownConfig home) = some (.file d)) →
          WP (.ask (.write (configFile home) text) (orRaise k)) Q s) := by
      intro s k hi hd hk
      have nofile : ∀ (s' : Disk D) (d : D), INV s' → s' (Spec.ownConfig home) = some (.file d) →
          s₀ (Spec.ownConfig home) = none := by
        intro s' d hi' h
        rcases hi'.2 (Spec.ownConfig home) with e | ⟨e, -⟩
        · exact absurd (e.symm.trans h) (h0 d)
        · exact e
      refine ⟨?_, ?_⟩
      · intro s' hs
        have k2 := hRe _ _ hs hi
        simp only [answer, hcf]
        rcases h : s' (Spec.ownConfig home) with - | (- | d)
        · rcases make_cases (deny := deny) (s := s') (c := "popsynth_config.yml") (p := configDir home)
            (.file blank) with ⟨e, e1, e2⟩ | ⟨⟨x, e⟩, e1⟩
          · have := put_inv k2.1 (.blank (home := home) (text := text)) h e1 e2
            change Chg _ _ _ _ _ _ (make deny s' ("popsynth_config.yml" :: configDir home) _).2 ∧
              WP (orRaise k (make deny s' ("popsynth_config.yml" :: configDir home) _).1) Q
                (make deny s' ("popsynth_config.yml" :: configDir home) _).2
            rw [e]
            exact ⟨fun _ => this, hk _ this.1 (k2.2.trans this.2) ⟨_, put_at ..⟩⟩
          · change Chg _ _ _ _ _ _ (make deny s' ("popsynth_config.yml" :: configDir home) _).2 ∧
              WP (orRaise k (make deny s' ("popsynth_config.yml" :: configDir home) _).1) Q
                (make deny s' ("popsynth_config.yml" :: configDir home) _).2
            rw [e]
            refine ⟨fun h => ⟨h, Retains.refl _⟩, hE (fun hx => ?_) _⟩
            rcases (k2.1.room hx).files _ (.inl rfl) with ⟨d, e⟩ | ⟨-, e⟩
            · rw [h] at e; cases e
            · have := e1 (k2.2.1 _ hd)
              change deny (configDir home) = false at e
              rw [this] at e; cases e
        · refine ⟨fun h => ⟨h, Retains.refl _⟩, hE (fun hx => ?_) _⟩
          rcases (k2.1.room hx).files _ (.inl rfl) with ⟨d, e⟩ | ⟨e, -⟩ <;> rw [h] at e <;> cases e
        · have := rewrite_inv k2.1 (nofile _ _ k2.1 h) h (.inl rfl)
          exact ⟨fun _ => this, hk _ this.1 (k2.2.trans this.2) ⟨_, put_at ..⟩⟩
      · rintro ⟨d, hf⟩ s' hs
        have k2 := hRe _ _ hs hi
        obtain ⟨d', h⟩ := k2.2.2 _ _ hf
        simp only [answer, hcf, h]
        have := rewrite_inv k2.1 (nofile _ _ k2.1 h) h (.inr rfl)
        exact ⟨fun _ => this, hk _ this.1 (k2.2.trans this.2) ⟨_, put_at ..⟩⟩
    refine wp_bind hr _ _ _ _ (wp_mkdirs hr hRe hE (K := fun _ => True) (fun _ _ _ h => h) true _
      (.inl List.suffix_rfl) (fun _ _ _ _ _ h => h) _ _ k1.1 trivial (by simp) ?_)
    intro s2 i2 b2 d2 _
    refine (op s2 _ i2 d2 fun s3 i3 b3 _ => ?_).1
    refine (op s3 _ i3 (b3.1 _ d2) fun s4 i4 b4 f4 => ?_).1
    refine (op s4 _ i4 (b4.1 _ (b3.1 _ d2)) fun s5 i5 b5 f5 => ?_).2 f4
    intro s6 h6
    obtain ⟨d5, f5⟩ := f5
    have k6 := hRe _ _ h6 i5
    obtain ⟨d6, f6⟩ := k6.2.2 _ _ f5
    exact hQ s6 d6 defaults k6.1 (k1.2.trans (b2.trans (b3.trans (b4.trans (b5.trans k6.2))))) f6 hcon
  simp only [answer, hcf]
  rcases h : s1 (Spec.ownConfig home) with - | (- | d)
  · exact absent (by simp [h])
  · exact absent (by simp [h])
  · intro s2 h2
    have k2 := hRe _ _ h2 k1.1
    obtain ⟨d2, f2⟩ := k2.2.2 _ _ h
    simp only [answer, f2]
    refine ⟨fun h => ⟨h, Retains.refl _⟩, ?_⟩
    have hcon : Spec.Settled home s₀ conv defaults load (load d2 >>= mergeConfig conv defaults) := by
      rcases k2.1.2 (Spec.ownConfig home) with e | ⟨e, -, n, e', hn⟩
      · exact .inl ⟨d2, e ▸ f2, rfl⟩
      · rw [f2] at e'
        cases e'
        refine .inr ⟨by simp [e], ?_⟩
        generalize hz : Spec.ownConfig home = z at hn
        cases hn with
        | log hl => rw [hb]
        | blank => rw [hb]
        | config => rw [hw]
    cases hm : load d2 >>= mergeConfig conv defaults with
    | error e => exact hE2 e (hm ▸ hcon)
    | ok c =>
      intro s3 h3
      have k3 := hRe _ _ h3 k2.1
      obtain ⟨d3, f3⟩ := k3.2.2 _ _ f2
      exact hQ s3 d3 c k3.1 (k1.2.trans (k2.2.trans k3.2)) f3 (hm ▸ hcon)

end

namespace Spec

/-- The files of the package are there. -/
structure Present (home : FPath) (s : Disk D) : Prop where
  config : ∃ d, s (ownConfig home) = some (.file d)
  logs : ∀ p, OwnLog home p → ∃ d, s p = some (.file d)

/-- An empty file reads as no entries, the file that is written as the defaults, whose values are
kept by conversions. -/
structure Readable (conv : V → V → Except Err V) (defaults : CTree V) (load : D → Except Err (CTree V))
    (blank text : D) : Prop where
  empty : load blank = .ok .nil
  saved : load text = .ok defaults
  names : NamesOnce defaults
  branch : Branch defaults []
  kept : ∀ p v, Has defaults p v → conv v v = .ok v

end Spec

section
variable {deny : FPath → Bool} {home : FPath} {blank text : D} {s₀ : Disk D}
  {conv : V → V → Except Err V} {defaults : CTree V} {load : D → Except Err (CTree V)}
  (h : Spec.Readable conv defaults load blank text)

include h in
theorem readable_merge : (load blank >>= mergeConfig conv defaults) = .ok defaults ∧
    (load text >>= mergeConfig conv defaults) = .ok defaults := by
  rw [h.empty, h.saved]
  refine ⟨merge_nil conv defaults h.branch, ?_⟩
  have := (C70_written conv defaults h.names h.kept).2
  simp only [importConfig] at this
  show mergeConfig conv defaults defaults = _
  cases hm : mergeConfig conv defaults defaults with
  | ok c => simp only [hm] at this; cases this; rfl
  | error e => simp only [hm] at this; cases this

include h in
theorem wp_importFiles {Re : Disk D → Disk D → Prop} {E : ImportErr → Prop} {quiet : Prop}
    (hr : ∀ s, Re s s) (hRe : ∀ s s', Re s s' → Chg deny home blank text s₀ s s')
    (hE : ¬ Spec.Room deny home s₀ → ∀ e, E (.os e))
    (hE2 : ∀ e, Spec.Settled home s₀ conv defaults load (.error e) → E (.config e))
    (hq : quiet → ∀ s s', Re s s' → s' = s) (hE' : ¬ quiet → E (.os .fileExists))
    (s : Disk D) (hi : FromDisk deny home blank text s₀ s) :
    wp deny blank Re (Chg deny home blank text s₀) E (importFiles conv defaults load text home)
      (fun s c => Spec.Present home s ∧ Spec.Settled home s₀ conv defaults load (.ok c)) s := by
  refine wp_bind hr _ _ _ _ (wp_getConfig hr hRe hE (readable_merge h).1 (readable_merge h).2 hE2 _ _ hi ?_)
  intro s1 d1 c i1 b1 f1 hc
  refine wp_bind hr _ _ _ _ (wp_openLog hr hRe hE hq hE' "dev.log" (.inl rfl) _ _ i1 ?_)
  intro s2 d2 i2 b2 f2
  refine wp_bind hr _ _ _ _ (wp_openLog hr hRe hE hq hE' "usr.log" (.inr rfl) _ _ i2 ?_)
  intro s3 d3 i3 b3 f3 s4 h4
  have k4 := hRe _ _ h4 i3
  refine ⟨⟨(b2.trans (b3.trans k4.2)).2 _ _ f1, ?_⟩, hc⟩
  rintro p (rfl | rfl)
  · exact (b3.trans k4.2).2 _ _ f2
  · exact k4.2.2 _ _ f3

theorem fromDisk_self (ht : Spec.Tree s₀) : FromDisk deny home blank text s₀ s₀ := ⟨ht, fun _ => .inl rfl⟩

/-- There is one configuration. -/
theorem configured_exists : ∃ r, Spec.Settled home s₀ conv defaults load r := by
  by_cases hx : ∃ d, s₀ (Spec.ownConfig home) = some (.file d)
  · obtain ⟨d, hd⟩ := hx
    exact ⟨_, .inl ⟨d, hd, rfl⟩⟩
  · exact ⟨_, .inr ⟨fun d hd => hx ⟨d, hd⟩, rfl⟩⟩

theorem configured_unique {r r' : Except Err (CTree V)} (h : Spec.Settled home s₀ conv defaults load r)
    (h' : Spec.Settled home s₀ conv defaults load r') : r = r' := by
  rcases h with ⟨d, e, rfl⟩ | ⟨e, rfl⟩ <;> rcases h' with ⟨d', e', rfl⟩ | ⟨e', rfl⟩
  · rw [e] at e'; cases e'; rfl
  · exact absurd e (e' d)
  · exact absurd e' (e d')
  · rfl

include h in
/-- The package's own changes do not change the configuration. -/
theorem configured_from {s : Disk D} (hi : FromDisk deny home blank text s₀ s) {r : Except Err (CTree V)} :
    Spec.Settled home s conv defaults load r ↔ Spec.Settled home s₀ conv defaults load r := by
  have key : ∀ r, Spec.Settled home s₀ conv defaults load r → Spec.Settled home s conv defaults load r := by
    intro r hr
    rcases hi.2 (Spec.ownConfig home) with e | ⟨e, -, n, e', hn⟩
    · unfold Spec.Settled; rw [e]; exact hr
    · rcases hr with ⟨d, e1, -⟩ | ⟨-, rfl⟩
      · rw [e] at e1; cases e1
      · obtain ⟨d, rfl⟩ := own_file hn (.inl rfl)
        refine .inl ⟨d, e', ?_⟩
        generalize Spec.ownConfig home = z at hn
        cases hn with
        | log hl => rw [(readable_merge h).1]
        | blank => rw [(readable_merge h).1]
        | config => rw [(readable_merge h).2]
  refine ⟨fun hr => ?_, key r⟩
  obtain ⟨r', hr'⟩ := configured_exists (home := home) (s₀ := s₀) (conv := conv) (defaults := defaults) (load := load)
  rw [configured_unique hr (key r' hr')]
  exact hr'

include h

theorem import_alone (ht : Spec.Tree s₀) {r : Except ImportErr (CTree V)} {s : Disk D}
    (hrun : (importFiles conv defaults load text home).run deny blank s₀ = (r, s)) :
    FromDisk deny home blank text s₀ s ∧
    (∀ c, r = .ok c → Spec.Present home s ∧ Spec.Settled home s₀ conv defaults load (.ok c)) ∧
    (∀ e, r = .error e → (¬ Spec.Room deny home s₀ ∧ ∃ e', e = .os e') ∨
      ∃ e', e = .config e' ∧ Spec.Settled home s₀ conv defaults load (.error e')) := by
  have := wp_run (Re := Eq) (Gu := Chg deny home blank text s₀)
    (E := fun e => (¬ Spec.Room deny home s₀ ∧ ∃ e', e = .os e') ∨
      ∃ e', e = .config e' ∧ Spec.Settled home s₀ conv defaults load (.error e'))
    (fun _ => rfl) (FromDisk deny home blank text s₀) (fun s s' hi hg => (hg hi).1) _ s₀ (fromDisk_self ht)
    (wp_importFiles h (quiet := True) (fun _ => rfl) (fun s s' e hi => e ▸ ⟨hi, Retains.refl _⟩)
      (fun hx e => .inl ⟨hx, e, rfl⟩) (fun e he => .inr ⟨e, rfl, he⟩) (fun _ s s' e => e.symm) (by simp) s₀
      (fromDisk_self ht))
  rw [hrun] at this
  exact this

omit h in
theorem tree_above {s : Disk D} (ht : Spec.Tree s) {p q : FPath} (hq : q <:+ p) (hne : q ≠ p)
    (hp : s p ≠ none) : s q = some .dir := by
  induction p with
  | nil => exact absurd (List.suffix_nil.1 hq) hne
  | cons c p ih =>
    have hd := ht.up c p hp
    rcases List.suffix_cons_iff.1 hq with e | hq
    · exact absurd e hne
    · by_cases e : q = p
      · rw [e]; exact hd
      · exact ih hq e (by simp [hd])

omit h in
/-- Where the files are there was room for them. -/
theorem room_of_present {s : Disk D} (hi : FromDisk deny home blank text s₀ s) (hp : Spec.Present home s) :
    Spec.Room deny home s₀ := by
  have back : ∀ p n, s p = some n → s₀ p = some n ∨ s₀ p = none ∧ deny p.tail = false := by
    intro p n e
    rcases hi.2 p with e' | ⟨e1, e2, -⟩
    · exact .inl (e' ▸ e)
    · exact .inr ⟨e1, e2⟩
  refine ⟨fun p hd => back p _ ?_, fun p hf => ?_⟩
  · obtain ⟨d, hc⟩ := hp.config
    obtain ⟨d', hl⟩ := hp.logs _ (.inl rfl)
    have hlen := OwnDir.length hd
    rcases hd with hd | hd
    · refine tree_above hi.1 (hd.trans (List.suffix_cons _ _)) (fun e => ?_) (p := Spec.ownConfig home) (by simp [hc])
      rw [e] at hlen; simp [Spec.ownConfig] at hlen; omega
    · refine tree_above hi.1 (hd.trans (List.suffix_cons "dev.log" _)) (fun e => ?_) (by simp [hl])
      rw [e] at hlen; simp at hlen; omega
  · have : ∃ d, s p = some (.file d) := by
      rcases hf with rfl | hf
      · exact hp.config
      · exact hp.logs p hf
    obtain ⟨d, e⟩ := this
    exact (back p _ e).imp (fun e => ⟨d, e⟩) id

/-- **C101** (nothing is lost): whether importing succeeds or not, in any file system, everything
that was there is there unchanged, and what is new are directories of the package, empty logs and
the default configuration. -/
theorem C101_kept (ht : Spec.Tree s₀) :
    Spec.Grown deny home blank text s₀ ((importFiles conv defaults load text home).run deny blank s₀).2 :=
  (import_alone h ht rfl).1.2

/-- **C101** (when importing succeeds): exactly if the directories and files are there or can be
made, and the user's configuration file, if any, is accepted.  Then the files are there, and the
configuration is that of C70. -/
theorem C101_succeeds (ht : Spec.Tree s₀) (c : CTree V) :
    (((importFiles conv defaults load text home).run deny blank s₀).1 = .ok c ↔
      Spec.Room deny home s₀ ∧ Spec.Settled home s₀ conv defaults load (.ok c)) ∧
    (((importFiles conv defaults load text home).run deny blank s₀).1 = .ok c →
      Spec.Present home ((importFiles conv defaults load text home).run deny blank s₀).2) := by
  obtain ⟨h1, h2, h3⟩ := import_alone (deny := deny) h ht rfl
  refine ⟨⟨fun hc => ⟨room_of_present h1 (h2 c hc).1, (h2 c hc).2⟩, fun ⟨hx, hc⟩ => ?_⟩, fun hc => (h2 c hc).1⟩
  cases hrun : ((importFiles conv defaults load text home).run deny blank s₀).1 with
  | ok c' =>
    have := configured_unique (h2 c' hrun).2 hc
    cases this
    rfl
  | error e =>
    rcases h3 e hrun with ⟨hx', -⟩ | ⟨e', -, he⟩
    · exact absurd hx hx'
    · cases configured_unique he hc

/-- **C101** (what is raised): an error of the operating system if there is no room, otherwise that
of the user's configuration file. -/
theorem C101_raises (ht : Spec.Tree s₀) (e : ImportErr)
    (hrun : ((importFiles conv defaults load text home).run deny blank s₀).1 = .error e) :
    (¬ Spec.Room deny home s₀ ∧ ∃ e', e = .os e') ∨
      ∃ e', e = .config e' ∧ Spec.Settled home s₀ conv defaults load (.error e') :=
  (import_alone h ht rfl).2.2 e hrun

/-- **C101** (later imports): after a successful import the next one gives the same configuration
and changes nothing. -/
theorem C101_again (ht : Spec.Tree s₀) (c : CTree V) (s : Disk D)
    (hrun : (importFiles conv defaults load text home).run deny blank s₀ = (.ok c, s)) :
    (importFiles conv defaults load text home).run deny blank s = (.ok c, s) := by
  obtain ⟨i1, h2, -⟩ := import_alone h ht hrun
  obtain ⟨hp, hc⟩ := h2 c rfl
  have hroom := i1.room (room_of_present i1 hp)
  refine Prod.ext (((C101_succeeds h i1.1 c).1).2 ⟨hroom, (configured_from h i1).2 hc⟩) ?_
  have hg := C101_kept (deny := deny) (home := home) h i1.1
  funext p
  rcases hg p with e | ⟨e, -, n, -, hn⟩
  · exact e
  · exfalso
    obtain ⟨d, hcf⟩ := hp.config
    cases hn with
    | dir hd =>
      obtain ⟨d', hl⟩ := hp.logs _ (.inl rfl)
      have hlen := OwnDir.length hd
      rcases hd with hd | hd
      · have := tree_above i1.1 (hd.trans (List.suffix_cons _ _)) (fun e => by
          rw [e] at hlen; simp [Spec.ownConfig] at hlen; omega) (p := Spec.ownConfig home) (by simp [hcf])
        rw [e] at this; cases this
      · have := tree_above i1.1 (hd.trans (List.suffix_cons "dev.log" _)) (fun e => by
          rw [e] at hlen; simp at hlen; omega) (by simp [hl])
        rw [e] at this; cases this
    | log hl =>
      obtain ⟨d', hl⟩ := hp.logs _ hl
      rw [e] at hl; cases hl
    | blank => rw [e] at hcf; cases hcf
    | config => rw [e] at hcf; cases hcf

/-- **C101** (several processes): however many processes import the package at the same time, and
however their requests to the operating system follow each other, nothing that was there changes,
every process that succeeds has the configuration it would have alone, and finds its files; a process
fails where it would alone, or with `FileExistsError`. -/
theorem C101_processes (ht : Spec.Tree s₀) {n : ℕ} {s : Disk D} {ps : List (Prog D (CTree V))}
    (hs : Relation.ReflTransGen (Spec.Step deny blank)
      (s₀, List.replicate n (importFiles conv defaults load text home)) (s, ps)) :
    Spec.Grown deny home blank text s₀ s ∧
    (∀ c, .ret c ∈ ps → Spec.Present home s ∧ Spec.Settled home s₀ conv defaults load (.ok c)) ∧
    (∀ e, .fail e ∈ ps → e = .os .fileExists ∨ (¬ Spec.Room deny home s₀ ∧ ∃ e', e = .os e') ∨
      ∃ e', e = .config e' ∧ Spec.Settled home s₀ conv defaults load (.error e')) := by
  obtain ⟨h1, h2⟩ := wp_pool (Re := Chg deny home blank text s₀) (Gu := Chg deny home blank text s₀)
    (E := fun e => e = .os .fileExists ∨ (¬ Spec.Room deny home s₀ ∧ ∃ e', e = .os e') ∨
      ∃ e', e = .config e' ∧ Spec.Settled home s₀ conv defaults load (.error e'))
    (Q := fun s c => Spec.Present home s ∧ Spec.Settled home s₀ conv defaults load (.ok c))
    (fun s hi => ⟨hi, Retains.refl _⟩)
    (fun a b c h1 h2 hi => ⟨(h2 (h1 hi).1).1, (h1 hi).2.trans (h2 (h1 hi).1).2⟩) (fun _ _ h => h) hs
    (fun m hm => by
      rw [List.eq_of_mem_replicate hm]
      exact wp_importFiles h (quiet := False) (fun s hi => ⟨hi, Retains.refl _⟩) (fun _ _ h => h)
        (fun hx e => .inr (.inl ⟨hx, e, rfl⟩)) (fun e he => .inr (.inr ⟨e, rfl, he⟩)) (by simp)
        (fun _ => .inl rfl) s₀ (fromDisk_self ht))
  refine ⟨(h1 (fromDisk_self ht)).1.2, fun c hc => ?_, fun e he => h2 _ he⟩
  exact h2 _ hc s fun hi => ⟨hi, Retains.refl _⟩

/-- **C101** (next import): whenever processes that import the package are stopped, the next import
succeeds if it would have before, with the same configuration. -/
theorem C101_after (ht : Spec.Tree s₀) {n : ℕ} {s : Disk D} {ps : List (Prog D (CTree V))}
    (hs : Relation.ReflTransGen (Spec.Step deny blank)
      (s₀, List.replicate n (importFiles conv defaults load text home)) (s, ps)) (c : CTree V)
    (hc : ((importFiles conv defaults load text home).run deny blank s₀).1 = .ok c) :
    ((importFiles conv defaults load text home).run deny blank s).1 = .ok c := by
  obtain ⟨h1, -⟩ := wp_pool (Re := Chg deny home blank text s₀) (Gu := Chg deny home blank text s₀)
    (E := fun _ => True) (Q := fun s c => Spec.Present home s ∧ Spec.Settled home s₀ conv defaults load (.ok c))
    (fun s hi => ⟨hi, Retains.refl _⟩)
    (fun a b c h1 h2 hi => ⟨(h2 (h1 hi).1).1, (h1 hi).2.trans (h2 (h1 hi).1).2⟩) (fun _ _ h => h) hs
    (fun m hm => by
      rw [List.eq_of_mem_replicate hm]
      exact wp_importFiles h (quiet := False) (fun s hi => ⟨hi, Retains.refl _⟩) (fun _ _ h => h)
        (fun _ _ => trivial) (fun _ _ => trivial) (by simp) (fun _ => trivial) s₀ (fromDisk_self ht))
  have i1 := (h1 (fromDisk_self ht)).1
  obtain ⟨hroom, hcon⟩ := ((C101_succeeds h ht c).1).1 hc
  exact ((C101_succeeds h i1.1 c).1).2 ⟨i1.room hroom, (configured_from h i1).2 hcon⟩

end

/-! ### Two processes -/

section
variable {α β : Type} {deny : FPath → Bool} {blank : D}

/-- The next request of a program. -/
def peel (deny : FPath → Bool) (blank : D) (s : Disk D) : Prog D α → Disk D × Prog D α
  | .ask q k => ((answer deny blank s q).2, k (answer deny blank s q).1)
  | m => (s, m)

theorem peel_reach (s : Disk D) (m : Prog D α) (l r : List (Prog D α)) :
    Relation.ReflTransGen (Spec.Step deny blank) (s, l ++ m :: r)
      ((peel deny blank s m).1, l ++ (peel deny blank s m).2 :: r) := by
  cases m with
  | ret a => exact .refl
  | fail e => exact .refl
  | ask q k => exact .single (.mk s l r q k)

theorem run_reach (m : Prog D α) (f : α → Prog D β) (s : Disk D) {a : α} {s' : Disk D}
    (h : m.run deny blank s = (.ok a, s')) (l r : List (Prog D β)) :
    Relation.ReflTransGen (Spec.Step deny blank) (s, l ++ m.bind f :: r) (s', l ++ f a :: r) := by
  induction m generalizing s with
  | ret a' => cases h; exact .refl
  | fail e => cases h
  | ask q k ih => exact .head (.mk s l r q fun x => (k x).bind f) (ih _ _ h)

theorem bind_assoc' {γ : Type} (m : Prog D α) (f : α → Prog D β) (g : β → Prog D γ) :
    (m.bind f).bind g = m.bind fun a => (f a).bind g := by
  induction m with
  | ret a => rfl
  | fail e => rfl
  | ask q k ih => exact congrArg (Prog.ask q) (funext fun r => ih r)

variable {home : FPath} {text : D} {s₀ : Disk D}
  {conv : V → V → Except Err V} {defaults : CTree V} {load : D → Except Err (CTree V)}

/-- **C101** (violated): that processes do not get in each other's way is false.  Wherever the
package has been configured but has not logged before, one of two processes that import it at the
same time can raise `FileExistsError`, although each would succeed alone: both find the directory of
the logs missing, and the second to make it fails. -/
theorem C101_violated_race (h : Spec.Readable conv defaults load blank text) (ht : Spec.Tree s₀)
    (hroom : Spec.Room deny home s₀) {d : D} {c : CTree V}
    (hcf : s₀ (Spec.ownConfig home) = some (.file d))
    (hc : (load d >>= mergeConfig conv defaults) = .ok c)
    (hl : s₀ ("popsynth" :: ".log" :: home) = none) :
    ((importFiles conv defaults load text home).run deny blank s₀).1 = .ok c ∧
    ∃ s ps, Relation.ReflTransGen (Spec.Step deny blank)
      (s₀, List.replicate 2 (importFiles conv defaults load text home)) (s, ps) ∧
      .fail (.os .fileExists) ∈ ps := by
  refine ⟨((C101_succeeds h ht c).1).2 ⟨hroom, .inl ⟨d, hcf, hc.symm⟩⟩, ?_⟩
  have hld : s₀ (logDir home) = none := hl
  have hcf' : s₀ (configFile home) = some (.file d) := hcf
  -- both processes read the configuration and look for the directory
  obtain ⟨G, hG⟩ : ∃ G : Unit → Prog D (CTree V), ∀ l r, Relation.ReflTransGen (Spec.Step deny blank)
      (s₀, l ++ importFiles conv defaults load text home :: r)
      (s₀, l ++ (mkdirs false (logDir home)).bind G :: r) := by
    refine ⟨fun _ => (((Prog.ret (logDir home) : Prog D FPath).bind fun d => .ret ("dev.log" :: d)).bind fun p =>
      .ask (.openA p) (orRaise (.ret ()))).bind fun _ => (openLog home "usr.log").bind fun _ => .ret c, fun l r => ?_⟩
    have r1 := peel_reach (deny := deny) (blank := blank) s₀ (importFiles conv defaults load text home) l r
    have r2 := peel_reach (deny := deny) (blank := blank) s₀ (peel deny blank s₀
      (importFiles conv defaults load text home)).2 l r
    have r3 := peel_reach (deny := deny) (blank := blank) s₀ (peel deny blank s₀ (peel deny blank s₀
      (importFiles conv defaults load text home)).2).2 l r
    simp only [importFiles, getConfig, Prog.bind, peel, answer, hcf', hc, openLog, getLogFile, getLogDir, hld,
      bind_assoc'] at r1 r2 r3
    simp only [importFiles, getConfig, Prog.bind, openLog, getLogFile, getLogDir, bind_assoc']
    exact r1.trans (r2.trans r3)
  -- the first makes it
  have hm := wp_run (Re := Eq) (Gu := Chg deny home blank text s₀) (E := fun _ => False)
    (Q := fun s _ => s (logDir home) = some .dir)
    (fun _ => rfl) (FromDisk deny home blank text s₀) (fun s s' hi hg => (hg hi).1) (mkdirs false (logDir home)) s₀
    (fromDisk_self ht) (wp_mkdirs (fun _ => rfl) (fun s s' e hi => e ▸ ⟨hi, Retains.refl _⟩)
      (fun hx => absurd hroom hx) (K := fun s => s (logDir home) = none) (fun s s' e hs => e ▸ hs) false _
      (show Spec.OwnDir home (logDir home) from .inr List.suffix_rfl)
      (fun s q _ _ hne hs => by rw [put_elsewhere _ _ (fun e => hne rfl e.symm)]; exact hs) _ _
      (fromDisk_self ht) hld (fun _ s hs hd => by rw [hs] at hd; cases hd) fun s' _ _ hd _ => hd)
  obtain ⟨s1, hrun, hd1⟩ : ∃ s1, (mkdirs false (logDir home)).run deny blank s₀ = (.ok (), s1) ∧
      s1 (logDir home) = some .dir := by
    cases hr : ((mkdirs false (logDir home)).run deny blank s₀).1 with
    | ok a => exact ⟨_, Prod.ext hr rfl, hm.2.1 a hr⟩
    | error e => exact (hm.2.2 e hr).elim
  -- the second fails
  have last := peel_reach (deny := deny) (blank := blank) s1 ((mkdirs false (logDir home)).bind G) [G ()] []
  have hfail : (peel deny blank s1 ((mkdirs false (logDir home)).bind G)).2 = .fail (.os .fileExists) := by
    have hd1' : s1 ("popsynth" :: ".log" :: home) = some .dir := hd1
    simp [logDir, mkdirs, Prog.bind, peel, answer, hd1', orDir]
  rw [hfail] at last
  refine ⟨_, _, ((hG [] [importFiles conv defaults load text home]).trans (hG [_] [])).trans
    ((run_reach _ G s₀ hrun [] [_]).trans last), by simp⟩

end

namespace FilesExample

/-- One setting. -/
def defaults : CTree Bool := .cons "show_progress" (.leaf true) .nil

/-- `false` is an empty file, `true` the defaults. -/
def load (d : Bool) : Except Err (CTree Bool) := .ok (if d then defaults else .nil)

theorem readable : Spec.Readable (fun _ v => .ok v) defaults load false true :=
  ⟨rfl, rfl, ⟨by simp [Spec.names], .nil, trivial, trivial⟩, .cons .., fun _ _ _ => rfl⟩

/-- A home directory with a configuration file. -/
def disk : Disk Bool := fun p =>
  if p = Spec.ownConfig ["me"] then some (.file true)
  else if p <:+ "popsynth" :: ".config" :: ["me"] then some .dir else none

theorem tree : Spec.Tree disk := by
  refine ⟨by simp [disk, Spec.ownConfig], fun c p hp => ?_⟩
  have key : p <:+ "popsynth" :: ".config" :: ["me"] := by
    unfold disk at hp
    by_contra hn
    split_ifs at hp with h1 h2
    · obtain ⟨-, rfl⟩ := List.cons.inj h1
      exact hn List.suffix_rfl
    · exact hn ((List.suffix_cons c p).trans h2)
    · exact hp rfl
  unfold disk
  rw [if_neg, if_pos key]
  rintro rfl
  have := key.length_le
  simp [Spec.ownConfig] at this

theorem room : Spec.Room (fun _ => false) ["me"] disk := by
  refine ⟨fun p hp => ?_, fun p hp => ?_⟩
  · have hl := OwnDir.length hp
    unfold disk
    rw [if_neg (fun e => by rw [e] at hl; simp [Spec.ownConfig] at hl)]
    split_ifs
    · exact .inl rfl
    · exact .inr ⟨rfl, rfl⟩
  · unfold disk
    split_ifs with h1 h2
    · exact .inl ⟨_, rfl⟩
    · rcases hp with rfl | hp
      · exact absurd rfl h1
      · have := OwnLog.length hp
        have := h2.length_le
        simp at *
        omega
    · exact .inr ⟨rfl, rfl⟩

/-- Two processes that import the package for the second and third time, before any log was
written. -/
example : ∃ s ps, Relation.ReflTransGen (Spec.Step (fun _ => false) false)
    (disk, List.replicate 2 (importFiles (fun _ v => .ok v) defaults load true ["me"])) (s, ps) ∧
    .fail (.os .fileExists) ∈ ps :=
  (C101_violated_race readable tree room (d := true) (c := defaults) (by simp [disk]) (by
    exact (readable_merge readable).2) (by decide)).2

/-- Alone, each succeeds, and keeps the file. -/
example : ((importFiles (fun _ v => .ok v) defaults load true ["me"]).run (fun _ => false) false disk).1 =
      .ok defaults ∧
    ((importFiles (fun _ v => .ok v) defaults load true ["me"]).run (fun _ => false) false disk).2
      (Spec.ownConfig ["me"]) = some (.file true) := by
  refine ⟨((C101_succeeds readable tree defaults).1).2 ⟨room, .inl ⟨true, by simp [disk],
    (readable_merge readable).2.symm⟩⟩, ?_⟩
  rcases C101_kept (deny := fun _ => false) (home := ["me"]) readable tree (Spec.ownConfig ["me"]) with e | ⟨e, -⟩
  · rw [e]; simp [disk]
  · simp [disk] at e

end FilesExample
end Popsynth
