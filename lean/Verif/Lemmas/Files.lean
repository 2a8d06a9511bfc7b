import Verif.Model.Files
import Mathlib.Logic.Relation
import Mathlib.Data.List.Infix

/-!
# Programs that share a file system
-/

set_option autoImplicit false
set_option linter.unusedSectionVars false

namespace Popsynth
open Files
variable {D α β : Type}

namespace Spec

/-- A file system: entries are in directories. -/
structure Tree (s : Disk D) : Prop where
  root : s [] = some .dir
  up : ∀ c p, s (c :: p) ≠ none → s p = some .dir

/-- Directories the package may make. -/
def OwnDir (home p : FPath) : Prop :=
  p <:+ "popsynth" :: ".config" :: home ∨ p <:+ "popsynth" :: ".log" :: home

/-- Its log files. -/
def OwnLog (home p : FPath) : Prop :=
  p = "dev.log" :: "popsynth" :: ".log" :: home ∨ p = "usr.log" :: "popsynth" :: ".log" :: home

/-- Its configuration file. -/
def ownConfig (home : FPath) : FPath := "popsynth_config.yml" :: "popsynth" :: ".config" :: home

/-- What it may put there: directories, empty log files and the default configuration. -/
inductive Own (home : FPath) (blank text : D) : FPath → Node D → Prop
  | dir {p : FPath} : OwnDir home p → Own home blank text p .dir
  | log {p : FPath} : OwnLog home p → Own home blank text p (.file blank)
  | blank : Own home blank text (ownConfig home) (.file blank)
  | config : Own home blank text (ownConfig home) (.file text)

/-- Nothing that was there has changed, and what is new belongs to the package. -/
def Grown (deny : FPath → Bool) (home : FPath) (blank text : D) (s₀ s : Disk D) : Prop :=
  ∀ p, s p = s₀ p ∨ s₀ p = none ∧ deny p.tail = false ∧ ∃ n, s p = some n ∧ Own home blank text p n

/-- The package's directories and files are there or can be made. -/
structure Room (deny : FPath → Bool) (home : FPath) (s : Disk D) : Prop where
  dirs : ∀ p, OwnDir home p → s p = some .dir ∨ s p = none ∧ deny p.tail = false
  files : ∀ p, p = ownConfig home ∨ OwnLog home p → (∃ d, s p = some (.file d)) ∨ s p = none ∧ deny p.tail = false

/-- Some process makes its next request. -/
inductive Step (deny : FPath → Bool) (blank : D) :
    Disk D × List (Prog D α) → Disk D × List (Prog D α) → Prop
  | mk (s : Disk D) (l r : List (Prog D α)) (q : Req D) (k : Answer D → Prog D α) :
    Step deny blank (s, l ++ .ask q k :: r)
      ((answer deny blank s q).2, l ++ k (answer deny blank s q).1 :: r)

end Spec

/-! ### Assertions about programs that are interrupted by others -/

section wp
variable (deny : FPath → Bool) (blank : D) (Re Gu : Disk D → Disk D → Prop) (E : ImportErr → Prop)

/-- The program, interrupted by changes in `Re`, makes only changes in `Gu`, raises only exceptions
in `E`, and when it returns, `Q` holds. -/
def wp : Prog D α → (Disk D → α → Prop) → Disk D → Prop
  | .ret a, Q, s => ∀ s', Re s s' → Q s' a
  | .fail e, _, _ => E e
  | .ask q k, Q, s => ∀ s', Re s s' → Gu s' (answer deny blank s' q).2 ∧
      wp (k (answer deny blank s' q).1) Q (answer deny blank s' q).2

variable {deny blank Re Gu E} (hr : ∀ s, Re s s) (ht : ∀ a b c, Re a b → Re b c → Re a c)

include hr in
theorem wp_bind (m : Prog D α) (f : α → Prog D β) (Q : Disk D → β → Prop) (s : Disk D)
    (h : wp deny blank Re Gu E m (fun s a => wp deny blank Re Gu E (f a) Q s) s) :
    wp deny blank Re Gu E (m.bind f) Q s := by
  induction m generalizing s with
  | ret a => exact h s (hr s)
  | fail e => exact h
  | ask q k ih => exact fun s' hs => ⟨(h s' hs).1, ih _ _ (h s' hs).2⟩

include ht in
theorem wp_later (m : Prog D α) (Q : Disk D → α → Prop) {s s' : Disk D} (h : Re s s')
    (hm : wp deny blank Re Gu E m Q s) : wp deny blank Re Gu E m Q s' := by
  cases m with
  | ret a => exact fun s'' hs => hm s'' (ht _ _ _ h hs)
  | fail e => exact hm
  | ask q k => exact fun s'' hs => hm s'' (ht _ _ _ h hs)

include hr ht in
/-- Programs that bear each other's changes can be interleaved. -/
theorem wp_pool (hG : ∀ s s', Gu s s' → Re s s') {Q : Disk D → α → Prop} {s s' : Disk D}
    {ps ps' : List (Prog D α)} (h : Relation.ReflTransGen (Spec.Step deny blank) (s, ps) (s', ps'))
    (hp : ∀ m ∈ ps, wp deny blank Re Gu E m Q s) :
    Re s s' ∧ ∀ m ∈ ps', wp deny blank Re Gu E m Q s' := by
  generalize hx : (s, ps) = x at h
  generalize hy : (s', ps') = z at h
  induction h generalizing s' ps' with
  | refl =>
    obtain ⟨rfl, rfl⟩ := Prod.mk.inj (hx.trans hy.symm)
    exact ⟨hr _, hp⟩
  | tail _ hs ih =>
    subst hy
    cases hs with
    | mk s1 l r q k =>
      obtain ⟨a, b⟩ := ih rfl
      have hb := b (.ask q k) (by simp) s1 (hr _)
      have g := hG _ _ hb.1
      refine ⟨ht _ _ _ a g, fun m hm => ?_⟩
      rcases List.mem_append.1 hm with hm | hm
      · exact wp_later ht m Q g (b m (List.mem_append_left _ hm))
      · rcases List.mem_cons.1 hm with rfl | hm
        · exact hb.2
        · exact wp_later ht m Q g (b m (by simp [hm]))

include hr in
/-- A program that runs alone. -/
theorem wp_run {Q : Disk D → α → Prop} (I : Disk D → Prop) (hG : ∀ s s', I s → Gu s s' → I s')
    (m : Prog D α) (s : Disk D) (hI : I s) (h : wp deny blank Re Gu E m Q s) :
    I (m.run deny blank s).2 ∧
    (∀ a, (m.run deny blank s).1 = .ok a → Q (m.run deny blank s).2 a) ∧
    (∀ e, (m.run deny blank s).1 = .error e → E e) := by
  induction m generalizing s with
  | ret a =>
    refine ⟨hI, fun a' ha => ?_, fun e he => by cases he⟩
    cases ha
    exact h s (hr s)
  | fail e =>
    refine ⟨hI, fun a' ha => (by cases ha), fun e' he => ?_⟩
    cases he
    exact h
  | ask q k ih =>
    obtain ⟨h1, h2⟩ := h s (hr s)
    exact ih _ _ (hG _ _ hI h1) h2

end wp

/-! ### The invariant -/

section
variable {deny : FPath → Bool} {home : FPath} {blank text : D} {s₀ s s' : Disk D}

theorem put_at (s : Disk D) (p : FPath) (n : Node D) : put s p n p = some n := if_pos rfl

theorem put_elsewhere (s : Disk D) {p q : FPath} (n : Node D) (h : q ≠ p) : put s p n q = s q := if_neg h

variable (deny home blank text s₀) in
/-- A file system that comes from `s₀`. -/
def FromDisk (s : Disk D) : Prop := Spec.Tree s ∧ Spec.Grown deny home blank text s₀ s

/-- What is there stays there. -/
def Retains (s s' : Disk D) : Prop :=
  (∀ p, s p = some .dir → s' p = some .dir) ∧ ∀ p d, s p = some (.file d) → ∃ d', s' p = some (.file d')

theorem Retains.refl (s : Disk D) : Retains s s := ⟨fun _ h => h, fun _ d h => ⟨d, h⟩⟩

theorem Retains.trans {s s' s'' : Disk D} (h : Retains s s') (h' : Retains s' s'') : Retains s s'' :=
  ⟨fun p hp => h'.1 p (h.1 p hp), fun p d hp => let ⟨d', e⟩ := h.2 p d hp; h'.2 p d' e⟩

variable (deny home blank text s₀) in
/-- Changes processes of the package make. -/
def Chg (s s' : Disk D) : Prop :=
  FromDisk deny home blank text s₀ s → FromDisk deny home blank text s₀ s' ∧ Retains s s'

theorem OwnDir.length {p : FPath} (h : Spec.OwnDir home p) : p.length ≤ home.length + 2 := by
  rcases h with h | h <;> simpa using h.length_le

theorem OwnLog.length {p : FPath} (h : Spec.OwnLog home p) : p.length = home.length + 3 := by
  rcases h with rfl | rfl <;> simp

theorem own_file {p : FPath} {n : Node D} (h : Spec.Own home blank text p n)
    (hp : p = Spec.ownConfig home ∨ Spec.OwnLog home p) : ∃ d, n = .file d := by
  cases h with
  | dir hd =>
    have := OwnDir.length hd
    rcases hp with rfl | hp
    · simp [Spec.ownConfig] at this
      omega
    · have := OwnLog.length hp
      omega
  | log => exact ⟨_, rfl⟩
  | blank => exact ⟨_, rfl⟩
  | config => exact ⟨_, rfl⟩

theorem own_dir {p : FPath} {n : Node D} (h : Spec.Own home blank text p n)
    (hp : Spec.OwnDir home p) : n = .dir := by
  have := OwnDir.length hp
  cases h with
  | dir => rfl
  | log hl => have := OwnLog.length hl; omega
  | blank => simp [Spec.ownConfig] at this; omega
  | config => simp [Spec.ownConfig] at this; omega

/-- Room is not taken away by processes of the package. -/
theorem FromDisk.room (h : FromDisk deny home blank text s₀ s) (hr : Spec.Room deny home s₀) :
    Spec.Room deny home s := by
  refine ⟨fun p hp => ?_, fun p hp => ?_⟩
  · rcases h.2 p with e | ⟨-, -, n, e, hn⟩
    · rw [e]; exact hr.dirs p hp
    · rw [e, own_dir hn hp]; exact .inl rfl
  · rcases h.2 p with e | ⟨-, -, n, e, hn⟩
    · rw [e]; exact hr.files p hp
    · obtain ⟨d, rfl⟩ := own_file hn hp
      exact .inl ⟨d, e⟩

theorem FromDisk.absent {p : FPath} (h : FromDisk deny home blank text s₀ s) (hp : s p = none) : s₀ p = none := by
  rcases h.2 p with e | ⟨e, -⟩
  · rw [← e, hp]
  · exact e

theorem put_inv {c : String} {p : FPath} {n : Node D} (h : FromDisk deny home blank text s₀ s)
    (hn : Spec.Own home blank text (c :: p) n) (h0 : s (c :: p) = none) (hp : s p = some .dir)
    (hd : deny p = false) :
    FromDisk deny home blank text s₀ (put s (c :: p) n) ∧ Retains s (put s (c :: p) n) := by
  have hne : p ≠ c :: p := fun e => by have := congrArg List.length e; simp at this
  refine ⟨⟨⟨?_, fun c' q hq => ?_⟩, fun q => ?_⟩, fun q hq => ?_, fun q d hq => ⟨d, ?_⟩⟩
  · rw [put_elsewhere _ _ (by simp)]; exact h.1.root
  · by_cases e : c' :: q = c :: p
    · obtain ⟨rfl, rfl⟩ := List.cons.inj e
      rw [put_elsewhere _ _ hne]; exact hp
    · rw [put_elsewhere _ _ e] at hq
      have := h.1.up c' q hq
      rw [put_elsewhere _ _ (fun e' => by rw [e', h0] at this; cases this)]
      exact this
  · by_cases e : q = c :: p
    · subst e
      exact .inr ⟨h.absent h0, hd, n, put_at .., hn⟩
    · rw [put_elsewhere _ _ e]; exact h.2 q
  · rw [put_elsewhere _ _ (fun e => by rw [e, h0] at hq; cases hq)]; exact hq
  · rw [put_elsewhere _ _ (fun e => by rw [e, h0] at hq; cases hq)]; exact hq

theorem rewrite_inv {d d' : D} (h : FromDisk deny home blank text s₀ s)
    (h0 : s₀ (Spec.ownConfig home) = none) (hp : s (Spec.ownConfig home) = some (.file d))
    (hd : d' = blank ∨ d' = text) :
    FromDisk deny home blank text s₀ (put s (Spec.ownConfig home) (.file d')) ∧
      Retains s (put s (Spec.ownConfig home) (.file d')) := by
  refine ⟨⟨⟨?_, fun c q hq => ?_⟩, fun q => ?_⟩, fun q hq => ?_, fun q x hq => ?_⟩
  · rw [put_elsewhere _ _ (by simp [Spec.ownConfig])]; exact h.1.root
  · have : s (c :: q) ≠ none := by
      by_cases e : c :: q = Spec.ownConfig home
      · rw [e, hp]; simp
      · rwa [put_elsewhere _ _ e] at hq
    have := h.1.up c q this
    rw [put_elsewhere _ _ (fun e => by rw [e, hp] at this; cases this)]
    exact this
  · by_cases e : q = Spec.ownConfig home
    · subst e
      rcases h.2 (Spec.ownConfig home) with e | ⟨-, hde, -⟩
      · rw [hp, h0] at e; cases e
      · refine .inr ⟨h0, hde, _, put_at .., ?_⟩
        rcases hd with rfl | rfl
        · exact .blank
        · exact .config
    · rw [put_elsewhere _ _ e]; exact h.2 q
  · rw [put_elsewhere _ _ (fun e => by rw [e, hp] at hq; cases hq)]; exact hq
  · by_cases e : q = Spec.ownConfig home
    · subst e; exact ⟨_, put_at ..⟩
    · exact ⟨x, by rw [put_elsewhere _ _ e]; exact hq⟩

theorem missing_cases (s : Disk D) (p : FPath) :
    missing s p = .fileNotFound ∨ missing s p = .notADirectory ∧ ∃ q d, q <:+ p ∧ s q = some (.file d) := by
  induction p with
  | nil => exact .inl rfl
  | cons c p ih =>
    unfold missing
    rcases h : s p with - | (- | d)
    · rcases ih with e | ⟨e, q, d, hq, hd⟩
      · exact .inl e
      · exact .inr ⟨e, q, d, hq.trans (List.suffix_cons c p), hd⟩
    · exact .inl rfl
    · exact .inr ⟨rfl, p, d, List.suffix_cons c p, h⟩

theorem make_of_dir {c : String} {p : FPath} (hp : s p = some .dir) (n : Node D) :
    make deny s (c :: p) n = if deny p then (.err .permission, s) else (.done, put s (c :: p) n) := by
  simp only [make, missing, hp, List.tail_cons]
  rfl

theorem make_cases {c : String} {p : FPath} (n : Node D) :
    make deny s (c :: p) n = (.done, put s (c :: p) n) ∧ s p = some .dir ∧ deny p = false ∨
    (∃ e, make deny s (c :: p) n = (.err e, s)) ∧ (s p = some .dir → deny p = true) := by
  rcases h : s p with - | (- | x)
  · right
    refine ⟨?_, fun e => by cases e⟩
    rcases missing_cases s (c :: p) with e | ⟨e, -⟩
    · exact ⟨.fileNotFound, by simp only [make, e, h, List.tail_cons]⟩
    · exact ⟨.notADirectory, by simp only [make, e]⟩
  · rw [make_of_dir h]
    cases deny p with
    | false => exact .inl ⟨rfl, rfl, rfl⟩
    | true => exact .inr ⟨⟨_, rfl⟩, fun _ => rfl⟩
  · exact .inr ⟨⟨.notADirectory, by simp only [make, missing, h]⟩, fun e => by cases e⟩

/-- Answers to a request for a directory of the package. -/
theorem mkdir_cases {c : String} {p : FPath} (h : FromDisk deny home blank text s₀ s)
    (hp : Spec.OwnDir home (c :: p)) :
    (answer deny blank s (.mkdir (c :: p)) = (.done, put s (c :: p) .dir) ∧ s (c :: p) = none ∧
      s p = some .dir ∧ deny p = false) ∨
    (∃ e, answer deny blank s (.mkdir (c :: p)) = (.err e, s) ∧ e ≠ .fileNotFound ∧
      (s (c :: p) = some .dir ∧ e = .fileExists ∨ ¬ Spec.Room deny home s₀)) ∨
    (answer deny blank s (.mkdir (c :: p)) = (.err .fileNotFound, s) ∧ s p = none) := by
  rcases h0 : s (c :: p) with - | (- | d)
  · rcases h1 : s p with - | (- | d)
    · rcases missing_cases s (c :: p) with e | ⟨e, q, d, hq, hd⟩
      · refine .inr (.inr ⟨?_, rfl⟩)
        simp [answer, h0, make, e, h1]
      · refine .inr (.inl ⟨.notADirectory, by simp [answer, h0, make, e], by simp, .inr fun hr => ?_⟩)
        have hq' : Spec.OwnDir home q := hp.imp hq.trans hq.trans
        rcases (h.room hr).dirs q hq' with e | ⟨e, -⟩ <;> rw [hd] at e <;> cases e
    · cases hd : deny p with
      | false => exact .inl ⟨by simp [answer, h0, make_of_dir h1, hd], rfl, rfl, rfl⟩
      | true =>
        refine .inr (.inl ⟨.permission, by simp [answer, h0, make_of_dir h1, hd], by simp, .inr fun hr => ?_⟩)
        rcases (h.room hr).dirs _ hp with e | ⟨-, e⟩
        · rw [h0] at e; cases e
        · rw [List.tail_cons, hd] at e; cases e
    · refine .inr (.inl ⟨.notADirectory, by simp [answer, h0, make, missing, h1], by simp, .inr fun hr => ?_⟩)
      have hq' : Spec.OwnDir home p := hp.imp (List.suffix_cons c p).trans (List.suffix_cons c p).trans
      rcases (h.room hr).dirs _ hq' with e | ⟨e, -⟩ <;> rw [h1] at e <;> cases e
  · exact .inr (.inl ⟨.fileExists, by simp [answer, h0], by simp, .inl ⟨rfl, rfl⟩⟩)
  · refine .inr (.inl ⟨.fileExists, by simp [answer, h0], by simp, .inr fun hr => ?_⟩)
    rcases (h.room hr).dirs _ hp with e | ⟨e, -⟩ <;> rw [h0] at e <;> cases e

end
end Popsynth
