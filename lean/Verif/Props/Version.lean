import Verif.Spec.Version
import Mathlib.Data.Nat.Digits.Lemmas
import Mathlib.Data.List.TakeWhile
import Mathlib.Tactic.IntervalCases

/-!
# C82: version strings
-/

set_option autoImplicit false

namespace Popsynth
open Spec

/-! ### Digits -/

theorem isDec_iff (c : Char) : isDec c = true ↔ c ∈ "0123456789".toList := by
  constructor
  · intro h
    simp only [isDec, Bool.and_eq_true, decide_eq_true_eq] at h
    obtain ⟨h1, h2⟩ := h
    have h1' : 48 ≤ c.toNat := h1
    have h2' : c.toNat ≤ 57 := h2
    have e : c = Char.ofNat c.toNat := (Char.ofNat_toNat c).symm
    generalize hn : c.toNat = n at *
    subst e
    interval_cases n <;> decide
  · intro h
    have : ∀ c ∈ "0123456789".toList, isDec c = true := by decide
    exact this c h

theorem isHex_iff (c : Char) : isHexLower c = true ↔ c ∈ "0123456789abcdef".toList := by
  constructor
  · intro h
    simp only [isHexLower, Bool.or_eq_true, Bool.and_eq_true, decide_eq_true_eq] at h
    have e : c = Char.ofNat c.toNat := (Char.ofNat_toNat c).symm
    rcases h with ⟨h1, h2⟩ | ⟨h1, h2⟩
    · have h1' : 48 ≤ c.toNat := h1
      have h2' : c.toNat ≤ 57 := h2
      generalize hn : c.toNat = n at *
      subst e
      interval_cases n <;> decide
    · have h1' : 97 ≤ c.toNat := h1
      have h2' : c.toNat ≤ 102 := h2
      generalize hn : c.toNat = n at *
      subst e
      interval_cases n <;> decide
  · intro h
    have : ∀ c ∈ "0123456789abcdef".toList, isHexLower c = true := by decide
    exact this c h

theorem digit_char {k : Nat} (h : k < 10) : (Char.ofNat (48 + k)).toNat = 48 + k ∧ isDec (Char.ofNat (48 + k)) = true := by
  interval_cases k <;> decide

theorem decimal_dec (n : Nat) : Dec (decimal n) := by
  unfold decimal
  split
  · exact ⟨by simp, by decide⟩
  · rename_i hn
    refine ⟨?_, ?_⟩
    · simp [Nat.digits_eq_nil_iff_eq_zero, hn]
    · intro c hc
      simp only [List.mem_reverse, List.mem_map] at hc
      obtain ⟨k, hk, rfl⟩ := hc
      exact (isDec_iff _).1 (digit_char (Nat.digits_lt_base (by norm_num) hk)).2

theorem decValue_append (s t : Text) : decValue (s ++ t) = t.foldl (fun a c => 10 * a + (c.toNat - 48)) (decValue s) := by
  simp [decValue, List.foldl_append]

theorem decValue_decimal (n : Nat) : decValue (decimal n) = n := by
  unfold decimal
  split
  · rename_i h; rw [h]; decide
  · have key : ∀ l : List Nat, (∀ k ∈ l, k < 10) →
        decValue ((l.map fun k => Char.ofNat (48 + k)).reverse) = Nat.ofDigits 10 l := by
      intro l
      induction l with
      | nil => intro _; rfl
      | cons a l ih =>
        intro h
        rw [List.map_cons, List.reverse_cons, decValue_append, ih fun k hk => h k (by simp [hk])]
        simp only [List.foldl_cons, List.foldl_nil, (digit_char (h a (by simp))).1]
        rw [Nat.ofDigits_cons]
        simp; omega
    rw [key _ fun k hk => Nat.digits_lt_base (by norm_num) hk, Nat.ofDigits_digits]

theorem decimal_injective {m n : Nat} (h : decimal m = decimal n) : m = n := by
  rw [← decValue_decimal m, h, decValue_decimal]

/-! ### Splitting at the first character that is not of a kind -/

theorem take_split {p : Char → Bool} : ∀ (a : Text) {c : Char} (r : Text), (∀ x ∈ a, p x = true) → p c = false →
    (a ++ c :: r).takeWhile p = a ∧ (a ++ c :: r).dropWhile p = c :: r
  | [], c, r, _, hc => by simp [List.takeWhile, List.dropWhile, hc]
  | x :: a, c, r, ha, hc => by
    obtain ⟨h1, h2⟩ := take_split a r (fun y hy => ha y (by simp [hy])) hc
    have hx := ha x (by simp)
    simp [List.takeWhile, List.dropWhile, hx, h1, h2]

/-- Two texts that agree, split at the first character not of the kind. -/
theorem split_unique {p : Char → Bool} {a b : Text} {c d : Char} {r s : Text} (ha : ∀ x ∈ a, p x = true)
    (hb : ∀ x ∈ b, p x = true) (hc : p c = false) (hd : p d = false) (h : a ++ c :: r = b ++ d :: s) :
    a = b ∧ c = d ∧ r = s := by
  obtain ⟨h1, h2⟩ := take_split a r ha hc
  obtain ⟨h3, h4⟩ := take_split b s hb hd
  rw [h] at h1 h2
  have e1 : a = b := h1.symm.trans h3
  have e2 : c :: r = d :: s := h2.symm.trans h4
  exact ⟨e1, by simpa using congrArg List.head? e2, by simpa using congrArg List.tail e2⟩

/-! ### Parsing -/

/-- The regular expression. -/
theorem C82_match (s T d h : Text) : matchDescribe s = some (T, d, h) ↔
    s = T ++ "-".toList ++ d ++ "-g".toList ++ h ∧ T ≠ [] ∧ '\n' ∉ T ∧ Dec d ∧ Hex h := by
  have toHex : ∀ l : Text, (∀ c ∈ l, isHexLower c = true) ↔ ∀ c ∈ l, c ∈ "0123456789abcdef".toList :=
    fun l => forall₂_congr fun c _ => isHex_iff c
  have toDec : ∀ l : Text, (∀ c ∈ l, isDec c = true) ↔ ∀ c ∈ l, c ∈ "0123456789".toList :=
    fun l => forall₂_congr fun c _ => isDec_iff c
  constructor
  · intro hm
    unfold matchDescribe at hm
    split at hm
    · rename_i r hr
      split at hm
      · rename_i t ht
        split at hm
        · cases hm
        · rename_i hb
          simp only [Bool.or_eq_true, not_or, List.isEmpty_iff, Bool.not_eq_true] at hb
          obtain ⟨⟨⟨b1, b2⟩, b3⟩, b4⟩ := hb
          simp only [Option.some.injEq, Prod.mk.injEq] at hm
          obtain ⟨rfl, rfl, rfl⟩ := hm
          have e1 := List.takeWhile_append_dropWhile (p := isHexLower) (l := s.reverse)
          have e2 := List.takeWhile_append_dropWhile (p := isDec) (l := r)
          rw [hr] at e1
          rw [ht] at e2
          refine ⟨?_, by simpa using b3, ?_, ⟨by simpa using b2, ?_⟩, ⟨by simpa using b1, ?_⟩⟩
          · rw [← List.reverse_inj]
            simp only [List.reverse_append, List.reverse_reverse]
            refine e1.symm.trans ?_
            refine congrArg (s.reverse.takeWhile isHexLower ++ ·) ?_
            show 'g' :: '-' :: r = 'g' :: '-' :: (List.takeWhile isDec r ++ '-' :: t)
            rw [e2]
          · intro hn
            rw [List.any_eq_false] at b4
            exact b4 '\n' (by simpa using hn) (by simp)
          · rw [← toDec]
            intro c hc
            exact List.mem_takeWhile_imp (by simpa using hc)
          · rw [← toHex]
            intro c hc
            exact List.mem_takeWhile_imp (by simpa using hc)
      · cases hm
    · cases hm
  · rintro ⟨rfl, h1, h2, h3, h4⟩
    have er : (T ++ "-".toList ++ d ++ "-g".toList ++ h).reverse =
        h.reverse ++ 'g' :: ('-' :: (d.reverse ++ '-' :: T.reverse)) := by simp
    obtain ⟨k1, k2⟩ := take_split (p := isHexLower) h.reverse ('-' :: (d.reverse ++ '-' :: T.reverse)) (c := 'g')
      (by intro x hx; exact (isHex_iff x).2 (h4.2 x (by simpa using hx))) (by decide)
    obtain ⟨k3, k4⟩ := take_split (p := isDec) d.reverse T.reverse (c := '-')
      (by intro x hx; exact (isDec_iff x).2 (h3.2 x (by simpa using hx))) (by decide)
    unfold matchDescribe
    rw [er, k1, k2]
    simp only [k3, k4]
    rw [if_neg]
    · simp
    · have := h3.1; have := h4.1
      simp_all

/-! ### White space -/

theorem strip_trim {s : Text} (h : Trim s) (w v : Text) (hw : ∀ c ∈ w, c.isWhitespace = true)
    (hv : ∀ c ∈ v, c.isWhitespace = true) (hs : s ≠ []) : strip (w ++ s ++ v) = s := by
  have drop : ∀ (w : Text) (x : Text), (∀ c ∈ w, c.isWhitespace = true) →
      (∀ c t, x = c :: t → c.isWhitespace = false) → (w ++ x).dropWhile Char.isWhitespace = x := by
    intro w x hw hx
    induction w with
    | nil =>
      cases x with
      | nil => rfl
      | cons c t => simp [List.dropWhile, hx c t rfl]
    | cons a w ih =>
      rw [List.cons_append, List.dropWhile_cons_of_pos (hw a (by simp))]
      exact ih fun c hc => hw c (by simp [hc])
  unfold strip stripOf
  rw [List.append_assoc, drop w (s ++ v) hw]
  · rw [List.reverse_append, drop v.reverse s.reverse (by simpa using hv)]
    · simp
    · intro c t e
      refine h.2 c t.reverse ?_
      rw [← List.reverse_inj, e]; simp
  · intro c t e
    cases s with
    | nil => exact absurd rfl hs
    | cons a s =>
      simp only [List.cons_append, List.cons.injEq] at e
      rw [← e.1]; exact h.1 a s rfl

/-- Hexadecimal digits are no white space. -/
theorem hex_white {c : Char} (h : c ∈ "0123456789abcdef".toList) : c.isWhitespace = false := by
  have : ∀ c ∈ "0123456789abcdef".toList, c.isWhitespace = false := by decide
  exact this c h

theorem last_suffix {a b c : Char} {s t : Text} (h : s ++ [a] <:+ t ++ [b]) : a = b := by
  obtain ⟨r, hr⟩ := h
  rw [← List.append_assoc] at hr
  exact (List.append_inj' hr rfl).2 |> fun e => by simpa using e

/-- A text of hexadecimal digits has a last digit. -/
theorem hex_last {h : Text} (hh : Hex h) : ∃ t c, h = t ++ [c] ∧ c ∈ "0123456789abcdef".toList := by
  refine ⟨h.dropLast, h.getLast hh.1, (List.dropLast_append_getLast hh.1).symm, hh.2 _ (List.getLast_mem hh.1)⟩

theorem described_trim {tag num hex : Text} {dirty : Bool} (ht : ∀ c t, tag = c :: t → c.isWhitespace = false)
    (h0 : tag ≠ []) (hh : Hex hex) : Trim (described tag num hex dirty) := by
  obtain ⟨u, c, rfl, hc⟩ := hex_last hh
  constructor
  · intro a t e
    cases tag with
    | nil => exact absurd rfl h0
    | cons b tag =>
      simp only [described, List.cons_append, List.cons.injEq] at e
      rw [← e.1]; exact ht b tag rfl
  · intro a t e
    cases dirty with
    | true =>
      have : described tag num (u ++ [c]) true = (tag ++ "-".toList ++ num ++ "-g".toList ++ (u ++ [c]) ++ "-dirt".toList) ++ ['y'] := by
        simp [described]
      rw [this] at e
      have := (List.append_inj' e rfl).2
      simp only [List.cons.injEq, and_true] at this
      rw [← this]; decide
    | false =>
      have : described tag num (u ++ [c]) false = (tag ++ "-".toList ++ num ++ "-g".toList ++ u) ++ [c] := by
        simp [described]
      rw [this] at e
      have := (List.append_inj' e rfl).2
      simp only [List.cons.injEq, and_true] at this
      rw [← this]; exact hex_white hc

theorem not_dirty {s h : Text} (hh : Hex h) : dashDirty.isSuffixOf (s ++ h) = false := by
  obtain ⟨u, c, rfl, hc⟩ := hex_last hh
  rw [← Bool.not_eq_true, List.isSuffixOf_iff_suffix]
  intro hs
  have e : dashDirty = "-dirt".toList ++ ['y'] := by decide
  rw [e, ← List.append_assoc] at hs
  have := last_suffix (c := c) hs
  rw [← this] at hc
  revert hc; decide

theorem is_dirty (s : Text) : dashDirty.isSuffixOf (s ++ dashDirty) = true := by
  rw [List.isSuffixOf_iff_suffix]; exact List.suffix_append _ _

/-- What `git describe --long --dirty` prints is read back exactly: the tag without its prefix, the
number of commits since then, the abbreviated hash and whether there are uncommitted changes. -/
theorem C82_parse (pre tag : Text) (n : Nat) (hex : Text) (dirty : Bool) (o : GitOut) (dir full date : Text)
    (h0 : pre ++ tag ≠ []) (h1 : '\n' ∉ pre ++ tag) (h2 : ∀ c t, pre ++ tag = c :: t → c.isWhitespace = false)
    (h3 : Hex hex) (hdir : o.gitDir = some dir) (hhead : o.head = some full) (hdate : o.date = some date)
    (hout : o.describe = some (described (pre ++ tag) (decimal n) hex dirty ++ ['\n'])) :
    gitPieces pre o = .ok (.inr { long := strip full, short := hex, dirty, closestTag := some tag, distance := n
                                  date := isoDate date }) := by
  have hs : strip (described (pre ++ tag) (decimal n) hex dirty ++ ['\n']) = described (pre ++ tag) (decimal n) hex dirty := by
    have := strip_trim (described_trim (num := decimal n) (dirty := dirty) h2 h0 h3) [] ['\n'] (by simp) (by decide)
      (by simp [described, h0])
    simpa using this
  have hd : dashDirty.isSuffixOf (described (pre ++ tag) (decimal n) hex dirty) = dirty := by
    cases dirty with
    | true => exact is_dirty _
    | false => simpa [described] using not_dirty (s := pre ++ tag ++ "-".toList ++ decimal n ++ "-g".toList) h3
  have hb : (if dirty then (described (pre ++ tag) (decimal n) hex dirty).take
      ((described (pre ++ tag) (decimal n) hex dirty).length - dashDirty.length) else described (pre ++ tag) (decimal n) hex dirty) =
      pre ++ tag ++ "-".toList ++ decimal n ++ "-g".toList ++ hex := by
    cases dirty with
    | false => simp [described]
    | true =>
      rw [if_pos rfl]
      have e : described (pre ++ tag) (decimal n) hex true = (pre ++ tag ++ "-".toList ++ decimal n ++ "-g".toList ++ hex) ++ dashDirty := rfl
      rw [e, List.length_append, Nat.add_sub_cancel, List.take_left']
      rfl
  have hm := (C82_match (pre ++ tag ++ "-".toList ++ decimal n ++ "-g".toList ++ hex) (pre ++ tag) (decimal n) hex).2
    ⟨rfl, h0, h1, decimal_dec n, h3⟩
  unfold gitPieces
  simp only [hdir, hout, hhead, hs, hd, hb, hm]
  rw [if_pos (by simp), if_pos (by simp [startsWith])]
  simp [withDate, hdate, decValue_decimal]

/-- Without a tag, `git describe --always` prints the hash alone; the distance is the number of
commits. -/
theorem C82_untagged (pre hex : Text) (n : Nat) (dirty : Bool) (o : GitOut) (dir full date : Text) (h3 : Hex hex)
    (hdir : o.gitDir = some dir) (hhead : o.head = some full) (hdate : o.date = some date)
    (hcount : o.count = some (decimal n))
    (hout : o.describe = some (hex ++ (if dirty then "-dirty".toList else []))) :
    gitPieces pre o = .ok (.inr { long := strip full, short := (strip full).take 7, dirty, closestTag := none, distance := n
                                  date := isoDate date }) := by
  have htrim : Trim (hex ++ (if dirty then "-dirty".toList else [])) := by
    constructor
    · intro c t e
      cases hex with
      | nil => exact absurd rfl h3.1
      | cons a hex =>
        simp only [List.cons_append, List.cons.injEq] at e
        rw [← e.1]; exact hex_white (h3.2 a (by simp))
    · intro c t e
      cases dirty with
      | true =>
        have e' : (hex ++ "-dirt".toList) ++ ['y'] = t ++ [c] := by simpa using e
        have := (List.append_inj' e' rfl).2
        simp only [List.cons.injEq, and_true] at this
        rw [← this]; decide
      | false =>
        have e' : hex = t ++ [c] := by simpa using e
        exact hex_white (h3.2 c (by rw [e']; simp))
  have hs : strip (hex ++ (if dirty then "-dirty".toList else [])) = hex ++ (if dirty then "-dirty".toList else []) := by
    have := strip_trim htrim [] [] (by simp) (by simp) (by simp [h3.1])
    simpa using this
  have hd : dashDirty.isSuffixOf (hex ++ (if dirty then "-dirty".toList else [])) = dirty := by
    cases dirty with
    | true => exact is_dirty _
    | false => simpa using not_dirty (s := []) h3
  have hb : (if dirty then (hex ++ (if dirty then "-dirty".toList else [])).take
      ((hex ++ (if dirty then "-dirty".toList else [])).length - dashDirty.length) else
        hex ++ (if dirty then "-dirty".toList else [])) = hex := by
    cases dirty with
    | false => simp
    | true =>
      have e : hex ++ (if true = true then "-dirty".toList else []) = hex ++ dashDirty := rfl
      rw [if_pos rfl, e, List.length_append, Nat.add_sub_cancel, List.take_left']
      rfl
  have hno : '-' ∉ hex := fun hc => by
    have := h3.2 _ hc
    revert this; decide
  have hdec : pyInt (decimal n) = .ok n := by
    obtain ⟨k1, k2⟩ := decimal_dec n
    unfold pyInt
    rw [if_pos, decValue_decimal]
    simp only [Bool.and_eq_true, Bool.not_eq_true', List.isEmpty_eq_false_iff, List.all_eq_true]
    exact ⟨k1, fun c hc => (isDec_iff c).2 (k2 c hc)⟩
  unfold gitPieces
  simp only [hdir, hout, hhead, hs, hd, hb, hcount, hdec]
  rw [if_neg hno]
  simp [withDate, hdate]

/-! ### Rendering -/

/-- The local part of a version. -/
def localPart (p : Pieces) : Text :=
  decimal p.distance ++ ['.', 'g'] ++ p.short ++ (if p.dirty then dotDirty else [])

theorem localPart_injective {p q : Pieces} (hp : Hex p.short) (hq : Hex q.short) (h : localPart p = localPart q) :
    p.distance = q.distance ∧ p.short = q.short ∧ p.dirty = q.dirty := by
  unfold localPart at h
  have isd : ∀ n, ∀ x ∈ decimal n, isDec x = true := fun n x hx => (isDec_iff x).2 ((decimal_dec n).2 x hx)
  have ish : ∀ s : Text, Hex s → ∀ x ∈ s, isHexLower x = true := fun s hs x hx => (isHex_iff x).2 (hs.2 x hx)
  simp only [List.append_assoc, List.cons_append, List.nil_append] at h
  obtain ⟨e1, -, e2⟩ := split_unique (p := isDec) (isd _) (isd _) (by decide) (by decide) h
  have e3 : p.short ++ (if p.dirty then dotDirty else []) = q.short ++ (if q.dirty then dotDirty else []) := by
    simpa using congrArg List.tail e2
  refine ⟨decimal_injective e1, ?_⟩
  cases hpd : p.dirty <;> cases hqd : q.dirty <;> simp only [hpd, hqd, if_true, Bool.false_eq_true, if_false, List.append_nil] at e3
  · exact ⟨e3, rfl⟩
  · exfalso
    have := hp.2 '.' (by rw [e3]; simp [dotDirty])
    revert this; decide
  · exfalso
    have := hq.2 '.' (by rw [← e3]; simp [dotDirty])
    revert this; decide
  · exact ⟨List.append_cancel_right e3, rfl⟩

theorem render_cases {p : Pieces} (h : PlainTag p) :
    (p.closestTag = none ∧ renderPep440 p = ['0'] ++ '+' :: ("untagged.".toList ++ localPart p)) ∨
    (∃ t, p.closestTag = some t ∧ t ≠ [] ∧ '+' ∉ t ∧ p.distance = 0 ∧ p.dirty = false ∧ renderPep440 p = t) ∨
    (∃ t, p.closestTag = some t ∧ t ≠ [] ∧ '+' ∉ t ∧ (p.distance ≠ 0 ∨ p.dirty = true) ∧
      renderPep440 p = t ++ '+' :: localPart p) := by
  cases ht : p.closestTag with
  | none => exact Or.inl ⟨rfl, by simp [renderPep440, ht, localPart]⟩
  | some t =>
    obtain ⟨h1, h2⟩ := h t ht
    right
    cases t with
    | nil => exact absurd rfl h1
    | cons c t =>
      by_cases hc : p.distance ≠ 0 ∨ p.dirty = true
      · refine Or.inr ⟨c :: t, rfl, h1, h2, hc, ?_⟩
        simp only [renderPep440, ht, plusOrDot, if_neg h2]
        rw [if_pos (by simpa using hc)]
        simp [localPart]
      · refine Or.inl ⟨c :: t, rfl, h1, h2, ?_, ?_, ?_⟩
        · by_contra hd; exact hc (Or.inl hd)
        · by_contra hd; exact hc (Or.inr (by simpa using hd))
        · simp only [renderPep440, ht]
          rw [if_neg (by simpa using hc)]
          simp

/-- The version names the tree: equal versions have the same tag, the same distance from it and the
same cleanliness; and the same commit, unless they are exactly at the tag. -/
theorem C82_names (p q : Pieces) (hp : PlainTag p) (hq : PlainTag q) (hps : Hex p.short) (hqs : Hex q.short)
    (h : renderPep440 p = renderPep440 q) :
    p.closestTag = q.closestTag ∧ p.distance = q.distance ∧ p.dirty = q.dirty ∧
      (p.short = q.short ∨ p.closestTag.isSome ∧ p.distance = 0 ∧ p.dirty = false) := by
  have np : ∀ t : Text, '+' ∉ t → ∀ x ∈ t, (fun c : Char => c != '+') x = true := fun t ht x hx => by
    simp only [bne_iff_ne, ne_eq]; rintro rfl; exact ht hx
  have cut : ∀ {a b r s : Text}, '+' ∉ a → '+' ∉ b → a ++ '+' :: r = b ++ '+' :: s → a = b ∧ r = s := by
    intro a b r s ha hb e
    obtain ⟨k1, -, k2⟩ := split_unique (p := fun c : Char => c != '+') (np a ha) (np b hb) (by decide) (by decide) e
    exact ⟨k1, k2⟩
  have unt : ∀ {x y : Pieces}, "untagged.".toList ++ localPart x ≠ localPart y := by
    intro x y e
    have hd := decimal_dec y.distance
    unfold localPart at e
    cases hy : decimal y.distance with
    | nil => exact hd.1 hy
    | cons c r =>
      rw [hy] at e
      have hc : c = 'u' := by
        have := congrArg List.head? e
        simpa using this.symm
      have := hd.2 c (by rw [hy]; simp)
      rw [hc] at this
      revert this; decide
  rcases render_cases hp with ⟨a1, a2⟩ | ⟨t, a1, -, a3, a4, a5, a6⟩ | ⟨t, a1, -, a3, a4, a6⟩ <;>
    rcases render_cases hq with ⟨b1, b2⟩ | ⟨u, b1, -, b3, b4, b5, b6⟩ | ⟨u, b1, -, b3, b4, b6⟩
  · rw [a2, b2] at h
    have e := (cut (by decide) (by decide) h).2
    obtain ⟨k1, k2, k3⟩ := localPart_injective hps hqs (List.append_cancel_left e)
    exact ⟨a1.trans b1.symm, k1, k3, Or.inl k2⟩
  · exact absurd (by rw [← b6, ← h, a2]; simp) b3
  · rw [a2, b6] at h
    exact absurd (cut (by decide) b3 h).2 unt
  · exact absurd (by rw [← a6, h, b2]; simp) a3
  · rw [a6, b6] at h
    subst h
    exact ⟨a1.trans b1.symm, a4.trans b4.symm, a5.trans b5.symm, Or.inr ⟨by simp [a1], a4, a5⟩⟩
  · exact absurd (by rw [← a6, h, b6]; simp) a3
  · rw [a6, b2] at h
    exact absurd (cut a3 (by decide) h).2.symm unt
  · exact absurd (by rw [← b6, ← h, a6]; simp) b3
  · rw [a6, b6] at h
    obtain ⟨e1, e2⟩ := cut a3 b3 h
    subst e1
    obtain ⟨k1, k2, k3⟩ := localPart_injective hps hqs e2
    exact ⟨a1.trans b1.symm, k1, k3, Or.inl k2⟩

/-- Exactly at a tag, without changes, the version is the tag; otherwise it is not. -/
theorem C82_release (p : Pieces) (t : Text) (ht : t ≠ []) (h : p.closestTag = some t) :
    renderPep440 p = t ↔ p.distance = 0 ∧ p.dirty = false := by
  cases t with
  | nil => exact absurd rfl ht
  | cons c t =>
    simp only [renderPep440, h]
    by_cases hc : p.distance ≠ 0 ∨ p.dirty = true
    · rw [if_pos (by simpa using hc)]
      constructor
      · intro e
        have := congrArg List.length e
        simp at this
      · rintro ⟨e1, e2⟩
        rcases hc with hc | hc
        · exact absurd e1 hc
        · rw [e2] at hc; cases hc
    · rw [if_neg (by simpa using hc)]
      simp only [not_or, ne_eq, not_not, Bool.not_eq_true] at hc
      simp [hc]

/-- A local version has one plus sign. -/
theorem C82_plus (p : Pieces) (hp : Hex p.short) (ht : ∀ t, p.closestTag = some t → t.count '+' ≤ 1) :
    (renderPep440 p).count '+' ≤ 1 := by
  have hl : (localPart p).count '+' = 0 := by
    rw [List.count_eq_zero]
    intro hm
    simp only [localPart, List.mem_append] at hm
    rcases hm with ((hm | hm) | hm) | hm
    · have := (decimal_dec _).2 _ hm; revert this; decide
    · revert hm; decide
    · have := hp.2 _ hm; revert this; decide
    · split at hm
      · revert hm; decide
      · cases hm
  have h0 : ∀ p : Pieces, "0+untagged.".toList ++ decimal p.distance ++ ['.', 'g'] ++ p.short ++ (if p.dirty then dotDirty else []) =
      "0+untagged.".toList ++ localPart p := fun p => by simp [localPart]
  cases h : p.closestTag with
  | none =>
    simp only [renderPep440, h, h0, List.count_append, hl]; decide
  | some t =>
    cases t with
    | nil => simp only [renderPep440, h, h0, List.count_append, hl]; decide
    | cons c t =>
      have h1 := ht _ h
      simp only [renderPep440, h]
      split
      · have e : plusOrDot (c :: t) ++ decimal p.distance ++ ['.', 'g'] ++ p.short ++ (if p.dirty then dotDirty else []) =
            plusOrDot (c :: t) ++ localPart p := by simp [localPart]
        rw [e, List.count_append, List.count_append, hl]
        unfold plusOrDot
        split
        · simpa using h1
        · rename_i hn
          rw [List.count_eq_zero.2 hn]; decide
      · simpa using h1

/-- Full pipeline at a release: a clean checkout of the tag `v` ++ t, outside an archive. -/
theorem C82_checkout (k : Keywords) (o : GitOut) (names : List Text) (tag hex dir full date : Text) (n : Nat) (dirty : Bool)
    (hk : startsWith "$Format".toList (strip k.refnames) = true) (h0 : tag ≠ []) (h1 : '\n' ∉ tag) (h3 : Hex hex)
    (hdir : o.gitDir = some dir) (hhead : o.head = some full) (hdate : o.date = some date)
    (hout : o.describe = some (described ('v' :: tag) (decimal n) hex dirty ++ ['\n'])) :
    ∃ v, getVersions k o names = .ok v ∧ v.revision = some (strip full) ∧ v.dirty = some dirty ∧ v.error = none ∧
      v.date = some (isoDate date) ∧ (v.version = tag ↔ n = 0 ∧ dirty = false) ∧
      v.version = renderPep440 ⟨strip full, hex, dirty, some tag, n, isoDate date⟩ := by
  have hp := C82_parse ['v'] tag n hex dirty o dir full date (by simp) (by simpa using h1)
    (by intro c t e; simp only [List.cons_append, List.cons.injEq] at e; rw [← e.1]; decide) h3 hdir hhead hdate hout
  refine ⟨{ version := renderPep440 ⟨strip full, hex, dirty, some tag, n, isoDate date⟩, revision := some (strip full)
            dirty := some dirty, error := none, date := some (isoDate date) }, ?_, rfl, rfl, rfl, rfl,
    C82_release ⟨strip full, hex, dirty, some tag, n, isoDate date⟩ tag h0 rfl, rfl⟩
  have h2 : keywordVersion ['v'] k = .error .notThisMethod := by
    unfold keywordVersion; rw [if_pos hk]
  unfold getVersions
  rw [hp, h2]
  rfl

/-- Two trees with the same version, when a tag has a plus: tag `1+2.gab` itself, and two commits
after tag `1`, at `ab`. -/
theorem C82_violated_plus : ∃ p q : Pieces, Hex p.short ∧ Hex q.short ∧ p.closestTag ≠ q.closestTag ∧ p.short ≠ q.short ∧
    renderPep440 p = renderPep440 q :=
  ⟨⟨[], "cd".toList, false, some "1+2.gab".toList, 0, []⟩, ⟨[], "ab".toList, false, some "1".toList, 2, []⟩,
    ⟨by decide, by decide⟩, ⟨by decide, by decide⟩, by decide, by decide, by
      simp [renderPep440, plusOrDot, decimal]⟩

/-- A tag that is the prefix alone is taken for none: its release is called untagged. -/
theorem C82_violated_empty : ∃ p : Pieces, p.closestTag = some [] ∧ p.distance = 0 ∧ p.dirty = false ∧
    renderPep440 p ≠ [] ∧ renderPep440 p = renderPep440 { p with closestTag := none } :=
  ⟨⟨[], "ab".toList, false, some [], 0, []⟩, rfl, rfl, rfl, by simp [renderPep440], rfl⟩

/-- When `git` stops working between two of the commands, the exception leaves `get_versions`, which
promises to fall back to other methods. -/
theorem C82_violated_escape (k : Keywords) (names : List Text)
    (hk : startsWith "$Format".toList (strip k.refnames) = true) : ∃ (o : GitOut) (e : Err),
    getVersions k o names = .error (.py e) :=
  ⟨⟨some [], some "ab".toList, some "ab".toList, none, none⟩, .type, by
    have h1 : gitPieces ['v'] ⟨some [], some "ab".toList, some "ab".toList, none, none⟩ = .error (.py .type) := by
      decide
    have h2 : keywordVersion ['v'] k = .error .notThisMethod := by
      unfold keywordVersion; rw [if_pos hk]
    unfold getVersions
    rw [h1, h2]
    rfl⟩

/-! ### The other styles -/

/-- `pep440-pre` does not show uncommitted changes nor the commit. -/
theorem C82_pre (p : Pieces) (long short date : Text) (dirty : Bool) :
    renderPre { p with long, short, dirty, date } = renderPre p := rfl

/-- `git-describe-long` is the inverse of parsing, for tags that are not empty. -/
theorem C82_long (p : Pieces) (t : Text) (ht : t ≠ []) (h : p.closestTag = some t) :
    renderLong p = described t (decimal p.distance) p.short p.dirty := by
  cases t with
  | nil => exact absurd rfl ht
  | cons c t => simp [renderLong, h, described, dashDirty]

/-- `git-describe` prints what `git describe --tags --dirty --always` prints: the tag alone at the
tag, whether or not there are changes, and the long form behind it. -/
theorem C82_describe (p : Pieces) :
    (∀ t, t ≠ [] → p.closestTag = some t → renderDescribe p =
      if p.distance = 0 then t ++ (if p.dirty then "-dirty".toList else [])
      else described t (decimal p.distance) p.short p.dirty) ∧
    (p.closestTag = none → renderDescribe p = p.short ++ (if p.dirty then "-dirty".toList else [])) := by
  constructor
  · intro t ht h
    cases t with
    | nil => exact absurd rfl ht
    | cons c t =>
      by_cases h0 : p.distance = 0 <;> simp [renderDescribe, h, h0, described, dashDirty]
  · intro h
    simp [renderDescribe, h, dashDirty]

/-- `pep440-post` and `pep440-old` differ by the commit; `git-describe` leaves out a distance of zero. -/
theorem C82_post (p : Pieces) : renderOld p <+: renderPost p := by
  unfold renderOld renderPost
  split
  · simp [List.append_assoc]
  · simp [List.append_assoc]
  · rename_i tag ht _
    split <;> simp [List.append_assoc]

/-- All styles but the long one give the tag at a release. -/
theorem C82_release_styles (p : Pieces) (t : Text) (ht : t ≠ []) (h : p.closestTag = some t) (h0 : p.distance = 0)
    (hd : p.dirty = false) (s : Style) (hs : s ≠ .long) (hu : s ≠ .unknown) : renderText s p = .ok t := by
  cases t with
  | nil => exact absurd rfl ht
  | cons c t =>
    cases s <;> first
      | exact absurd rfl hs
      | exact absurd rfl hu
      | simp [renderText, renderPep440, renderPre, renderPost, renderOld, renderDescribe, h, h0, hd]

/-- The text of every style, for commits without a tag. -/
theorem C82_untagged_texts (p : Pieces) (h : p.closestTag = none) :
    renderText .pep440 p = .ok ("0+untagged.".toList ++ decimal p.distance ++ ".g".toList ++ p.short ++
      (if p.dirty then ".dirty".toList else [])) ∧
    renderText .pre p = .ok ("0.post.dev".toList ++ decimal p.distance) ∧
    renderText .post p = .ok ("0.post".toList ++ decimal p.distance ++ (if p.dirty then ".dev0".toList else []) ++
      "+g".toList ++ p.short) ∧
    renderText .old p = .ok ("0.post".toList ++ decimal p.distance ++ (if p.dirty then ".dev0".toList else [])) ∧
    renderText .describe p = .ok (p.short ++ (if p.dirty then "-dirty".toList else [])) ∧
    renderText .long p = .ok (p.short ++ (if p.dirty then "-dirty".toList else [])) := by
  refine ⟨?_, ?_, ?_, ?_, ?_, ?_⟩ <;>
    simp [renderText, renderPep440, renderPre, renderPost, renderOld, renderDescribe, renderLong, h, dotDirty, dashDirty]

/-- The text of every style behind a tag, with `.` instead of `+` in tags that have a `+` already. -/
theorem C82_tagged_texts (p : Pieces) (t : Text) (ht : t ≠ []) (h : p.closestTag = some t) (hn : p.distance ≠ 0) :
    renderText .pep440 p = .ok (t ++ (if '+' ∈ t then ".".toList else "+".toList) ++ decimal p.distance ++
      ".g".toList ++ p.short ++ (if p.dirty then ".dirty".toList else [])) ∧
    renderText .pre p = .ok (t ++ ".post.dev".toList ++ decimal p.distance) ∧
    renderText .post p = .ok (t ++ ".post".toList ++ decimal p.distance ++ (if p.dirty then ".dev0".toList else []) ++
      (if '+' ∈ t then ".".toList else "+".toList) ++ "g".toList ++ p.short) ∧
    renderText .old p = .ok (t ++ ".post".toList ++ decimal p.distance ++ (if p.dirty then ".dev0".toList else [])) ∧
    renderText .describe p = .ok (t ++ "-".toList ++ decimal p.distance ++ "-g".toList ++ p.short ++
      (if p.dirty then "-dirty".toList else [])) ∧
    renderText .long p = .ok (t ++ "-".toList ++ decimal p.distance ++ "-g".toList ++ p.short ++
      (if p.dirty then "-dirty".toList else [])) := by
  cases t with
  | nil => exact absurd rfl ht
  | cons c t =>
    refine ⟨?_, ?_, ?_, ?_, ?_, ?_⟩ <;>
      simp [renderText, renderPep440, renderPre, renderPost, renderOld, renderDescribe, renderLong, h, hn, dotDirty,
        dashDirty, plusOrDot]

/-- What is reported: an answer of `git` that cannot be read gives the version `unknown` with the text
at fault, in every style; otherwise the text of the style with the commit, its date and whether there are
changes; an unknown style raises a `ValueError`. -/
theorem C82_report (s : Style) :
    (∀ b : BadPieces, ∃ v, render (.inl b) s = .ok v ∧ v.version = "unknown".toList ∧ v.revision = some b.long ∧
      v.error = some b.error ∧ v.dirty = none ∧ v.date = none) ∧
    (∀ p : Pieces, s ≠ .unknown → ∃ v, render (.inr p) s = .ok v ∧ renderText s p = .ok v.version ∧
      v.revision = some p.long ∧ v.error = none ∧ v.dirty = some p.dirty ∧ v.date = some p.date) ∧
    (∀ p : Pieces, s = .unknown → render (.inr p) s = .error (.py .value)) := by
  refine ⟨fun b => ⟨_, rfl, rfl, rfl, rfl, rfl, rfl⟩, fun p hs => ?_, fun p hs => by subst hs; rfl⟩
  cases s <;> first
    | exact absurd rfl hs
    | exact ⟨_, rfl, rfl, rfl, rfl, rfl, rfl⟩

/-- When only the command that prints the date fails, an `AttributeError` leaves the function. -/
theorem C82_violated_date (pre : Text) (o : GitOut) (d : Text) (p : Pieces) (h0 : o.date = none)
    (h : gitPieces pre { o with date := some d } = .ok (.inr p)) :
    gitPieces pre o = .error (.py .attribute) := by
  revert h
  unfold gitPieces
  simp only
  split
  · intro h; cases h
  · intro h; cases h
  · intro h; cases h
  · simp only [withDate, h0]
    repeat' split
    all_goals first
      | (intro _; rfl)
      | (intro h; cases h)
      | exact fun h => nomatch h

/-- Three commits behind `1.2`, with changes. -/
example : renderText .pre ⟨[], "ab12".toList, true, some "1.2".toList, 3, []⟩ = .ok "1.2.post.dev3".toList ∧
    renderText .post ⟨[], "ab12".toList, true, some "1.2".toList, 3, []⟩ = .ok "1.2.post3.dev0+gab12".toList ∧
    renderText .old ⟨[], "ab12".toList, true, none, 3, []⟩ = .ok "0.post3.dev0".toList := by
  decide

/-! ### Dates -/

theorem replaceSpace_first (new : Text) : ∀ (a s : Text), ' ' ∉ a → replaceSpace new (a ++ ' ' :: s) = a ++ new ++ s
  | [], s, _ => by simp [replaceSpace]
  | c :: a, s, h => by
    have hc : c ≠ ' ' := fun e => h (by simp [e])
    have ih := replaceSpace_first new a s fun hm => h (by simp [hm])
    simp [replaceSpace, hc, ih]

/-- `2020-11-17 02:38:00 +0000` becomes `2020-11-17T02:38:00+0000`. -/
theorem C82_date (a b c : Text) (ha : a ≠ [] ∧ ∀ x ∈ a, x.isWhitespace = false) (hb : ∀ x ∈ b, x.isWhitespace = false)
    (hc : c ≠ [] ∧ ∀ x ∈ c, x.isWhitespace = false) :
    isoDate (a ++ " ".toList ++ b ++ " ".toList ++ c ++ "\n".toList) = a ++ "T".toList ++ b ++ c := by
  have sp : ∀ x : Text, (∀ y ∈ x, y.isWhitespace = false) → ' ' ∉ x := fun x hx hm => by
    have := hx _ hm; revert this; decide
  have ht : Trim (a ++ " ".toList ++ b ++ " ".toList ++ c) := by
    constructor
    · intro x t e
      obtain ⟨a1, a2⟩ := ha
      cases a with
      | nil => exact absurd rfl a1
      | cons y a =>
        simp only [List.cons_append, List.cons.injEq] at e
        rw [← e.1]; exact a2 y (by simp)
    · intro x t e
      have e' : (a ++ " ".toList ++ b ++ " ".toList ++ c.dropLast) ++ [c.getLast hc.1] = t ++ [x] := by
        rw [List.append_assoc, List.dropLast_append_getLast hc.1]; exact e
      have := (List.append_inj' e' rfl).2
      simp only [List.cons.injEq, and_true] at this
      rw [← this]; exact hc.2 _ (List.getLast_mem hc.1)
  have hs := strip_trim ht [] "\n".toList (by simp) (by decide) (by simp [ha.1])
  rw [List.nil_append] at hs
  unfold isoDate
  rw [hs]
  have e : a ++ " ".toList ++ b ++ " ".toList ++ c = a ++ ' ' :: (b ++ ' ' :: c) := by simp
  rw [e, replaceSpace_first _ _ _ (sp a ha.2)]
  have e2 : a ++ ['T'] ++ (b ++ ' ' :: c) = (a ++ ['T'] ++ b) ++ ' ' :: c := by simp
  rw [e2, replaceSpace_first]
  · simp
  · simp only [List.mem_append, not_or]
    exact ⟨⟨sp a ha.2, by decide⟩, sp b hb⟩

/-! ### Archives -/

theorem splitComma_single : ∀ (a : Text), ',' ∉ a → splitComma a = [a]
  | [], _ => rfl
  | c :: a, h => by
    have hc : c ≠ ',' := fun e => h (by simp [e])
    have ih := splitComma_single a fun hm => h (by simp [hm])
    simp [splitComma, hc, ih]

theorem splitComma_cons : ∀ (a s : Text), ',' ∉ a → splitComma (a ++ ',' :: s) = a :: splitComma s
  | [], s, _ => by simp [splitComma]
  | c :: a, s, h => by
    have hc : c ≠ ',' := fun e => h (by simp [e])
    have ih := splitComma_cons a s fun hm => h (by simp [hm])
    simp [splitComma, hc, ih]

theorem strip_ref {a : Text} (h : RefName a) : strip a = a := by
  have := strip_trim h.2.1 [] [] (by simp) (by simp) h.1
  simpa using this

theorem strip_space_ref {a : Text} (h : RefName a) : strip (' ' :: a) = a := by
  have := strip_trim h.2.1 [' '] [] (by decide) (by simp) h.1
  simpa using this

theorem split_refs : ∀ (l : List Text), l ≠ [] → (∀ a ∈ l, RefName a) →
    (splitComma (refLine l)).map strip = l ∧ (splitComma (' ' :: refLine l)).map strip = l
  | [], h, _ => absurd rfl h
  | [a], _, h => by
    have ha := h a (by simp)
    have hs : ',' ∉ ' ' :: a := by simp [ha.2.2.1]
    simp [refLine, splitComma_single a ha.2.2.1, splitComma_single _ hs, strip_ref ha, strip_space_ref ha]
  | a :: b :: l, _, h => by
    have ha := h a (by simp)
    have hs : ',' ∉ ' ' :: a := by simp [ha.2.2.1]
    have ih := (split_refs (b :: l) (by simp) fun c hc => h c (by simp [hc])).2
    have e : refLine (a :: b :: l) = a ++ ',' :: (' ' :: refLine (b :: l)) := by simp [refLine]
    rw [e, ← List.cons_append, splitComma_cons _ _ ha.2.2.1, splitComma_cons _ _ hs, List.map_cons, List.map_cons, ih,
      strip_ref ha, strip_space_ref ha]
    exact ⟨rfl, rfl⟩

theorem refLine_paren : ∀ (l : List Text), (∀ a ∈ l, RefName a) → '(' ∉ refLine l ∧ ')' ∉ refLine l
  | [], _ => by simp [refLine]
  | [a], h => by simpa [refLine] using (h a (by simp)).2.2.2
  | a :: b :: l, h => by
    have ha := (h a (by simp)).2.2.2
    have ih := refLine_paren (b :: l) fun c hc => h c (by simp [hc])
    simp [refLine, ha, ih]

theorem drop_none {p : Char → Bool} : ∀ (s : Text), (∀ c ∈ s, p c = false) → s.dropWhile p = s
  | [], _ => rfl
  | c :: s, h => List.dropWhile_cons_of_neg (by simp [h c (by simp)])

theorem stripOf_paren (s : Text) (h1 : '(' ∉ s) (h2 : ')' ∉ s) :
    stripOf (fun c => c == '(' || c == ')') ('(' :: s ++ [')']) = s := by
  have hs : ∀ c ∈ s, (fun c => c == '(' || c == ')') c = false := by
    intro c hc
    simp only [Bool.or_eq_false_iff, beq_eq_false_iff_ne]
    exact ⟨fun e => h1 (e ▸ hc), fun e => h2 (e ▸ hc)⟩
  unfold stripOf
  rw [List.cons_append, List.dropWhile_cons_of_pos (by rfl)]
  cases s with
  | nil => rfl
  | cons a s =>
    rw [List.cons_append, List.dropWhile_cons_of_neg (by simpa using hs a (by simp)), ← List.cons_append, List.reverse_append]
    show (List.dropWhile _ (')' :: (a :: s).reverse)).reverse = _
    rw [List.dropWhile_cons_of_pos (by rfl), drop_none _ (fun c hc => hs c (List.mem_reverse.1 hc)), List.reverse_reverse]

/-- The text of the references is read back. -/
theorem refs_read (l : List Text) (h0 : l ≠ []) (h : ∀ a ∈ l, RefName a) :
    strip (" (".toList ++ refLine l ++ ")".toList) = '(' :: refLine l ++ [')'] ∧
    (splitComma (stripOf (fun c => c == '(' || c == ')') ('(' :: refLine l ++ [')']))).map strip = l := by
  obtain ⟨p1, p2⟩ := refLine_paren l h
  constructor
  · have ht : Trim ('(' :: refLine l ++ [')']) := by
      constructor
      · intro c t e
        simp only [List.cons_append, List.cons.injEq] at e
        rw [← e.1]; decide
      · intro c t e
        have := (List.append_inj' e rfl).2
        simp only [List.cons.injEq, and_true] at this
        rw [← this]; decide
    have := strip_trim ht [' '] [] (by decide) (by simp) (by simp)
    simpa using this
  · rw [stripOf_paren _ p1 p2]
    exact (split_refs l h0 h).1

theorem textLe_total (a b : Text) : textLe a b || textLe b a := by
  simp only [textLe, Bool.or_eq_true, decide_eq_true_eq]
  exact List.le_total a b

theorem textLe_trans (a b c : Text) (h1 : textLe a b = true) (h2 : textLe b c = true) : textLe a c = true := by
  simp only [textLe, decide_eq_true_eq] at *
  exact List.le_trans h1 h2

/-- Searching a sorted list finds the least that fits. -/
theorem sorted_find {q : Text → Bool} (l : List Text) (r : Text) (h : (l.mergeSort textLe).find? q = some r) :
    r ∈ l ∧ q r = true ∧ ∀ r' ∈ l, q r' = true → r ≤ r' := by
  have hs : (l.mergeSort textLe).Pairwise fun a b => textLe a b = true :=
    List.pairwise_mergeSort (fun a b c => textLe_trans a b c) (fun a b => textLe_total a b) l
  have hm : ∀ x, x ∈ l.mergeSort textLe ↔ x ∈ l := fun x => List.mem_mergeSort
  refine ⟨(hm r).1 (List.mem_of_find?_eq_some h), List.find?_some h, fun r' hr' hq => ?_⟩
  rw [← hm] at hr'
  obtain ⟨-, as, bs, e, hn⟩ := List.find?_eq_some_iff_append.1 h
  rw [e] at hr' hs
  rw [List.pairwise_append] at hs
  rcases List.mem_append.1 hr' with hr' | hr'
  · have := hn r' hr'; simp [hq] at this
  · rcases List.mem_cons.1 hr' with rfl | hr'
    · exact List.le_refl _
    · have := (List.pairwise_cons.1 hs.2.1).1 r' hr'
      simpa [textLe] using this

/-- An archive of a tagged commit: among the tags with the prefix the least in dictionary order gives
the version. -/
theorem C82_archive (k : Keywords) (o : GitOut) (names : List Text) (l : List Text) (h : ∀ a ∈ l, RefName a)
    (hk : k.refnames = " (".toList ++ refLine l ++ ")".toList) (t : Text) (ht : "tag: v".toList ++ t ∈ l) :
    ∃ v r, getVersions k o names = .ok v ∧ v.version = r ∧ "tag: v".toList ++ r ∈ l ∧
      (∀ r', "tag: v".toList ++ r' ∈ l → r ≤ r') ∧ v.revision = some (strip k.full) ∧ v.dirty = some false ∧ v.error = none := by
  have h0 : l ≠ [] := by rintro rfl; cases ht
  obtain ⟨e1, e2⟩ := refs_read l h0 h
  have hmem : ∀ x : Text, x ∈ (l.filter (startsWith "tag: ".toList)).map (fun r => r.drop 5) ↔ "tag: ".toList ++ x ∈ l := by
    intro x
    simp only [List.mem_map, List.mem_filter, startsWith, List.isPrefixOf_iff_prefix]
    constructor
    · rintro ⟨a, ⟨ha, s, rfl⟩, rfl⟩; exact ha
    · intro hx; exact ⟨_, ⟨hx, ⟨x, rfl⟩⟩, rfl⟩
  have htags : tagsOf l = (l.filter (startsWith "tag: ".toList)).map (fun r => r.drop 5) := by
    unfold tagsOf
    have : 'v' :: t ∈ (l.filter (startsWith "tag: ".toList)).map (fun r => r.drop 5) := (hmem _).2 ht
    rw [if_neg]
    rw [List.isEmpty_iff]
    intro hn
    rw [hn] at this; cases this
  cases hf : ((tagsOf l).mergeSort textLe).find? (startsWith ['v']) with
  | none =>
    exfalso
    rw [List.find?_eq_none] at hf
    refine hf ('v' :: t) ?_ (by simp [startsWith])
    rw [List.mem_mergeSort, htags, hmem]; exact ht
  | some r =>
    obtain ⟨r1, r2, r3⟩ := sorted_find _ r hf
    simp only [startsWith, List.isPrefixOf_iff_prefix] at r2
    obtain ⟨s, rfl⟩ := r2
    rw [htags, hmem] at r1
    refine ⟨{ version := s, revision := some (strip k.full), dirty := some false, error := none
              date := k.date.map isoDate }, s, ?_, rfl, r1, ?_, rfl, rfl, rfl⟩
    · unfold getVersions
      have hkv : keywordVersion ['v'] k = .ok { version := s, revision := some (strip k.full), dirty := some false, error := none
                                                date := k.date.map isoDate } := by
        unfold keywordVersion
        rw [hk, e1]
        rw [if_neg (by simp [startsWith, List.isPrefixOf]), e2]
        dsimp only
        rw [hf]
        rfl
      rw [hkv]; rfl
    · intro r' hr'
      have := r3 ('v' :: r') (by rw [htags, hmem]; exact hr') (by simp [startsWith])
      rw [List.singleton_append, List.cons_le_cons_iff] at this
      rcases this with h | ⟨-, h⟩
      · exact absurd h (by decide)
      · exact h

/-- An archive whose references have no tag takes a branch with a digit in its name for one, without
any error. -/
theorem C82_violated_branch : ∃ (k : Keywords) (v : Version), k.refnames = " (HEAD, v3-dev)".toList ∧
    (∀ o names, getVersions k o names = .ok v) ∧ v.version = "3-dev".toList ∧ v.error = none := by
  refine ⟨⟨" (HEAD, v3-dev)".toList, [], none⟩, ⟨"3-dev".toList, some [], some false, none, none⟩, rfl, fun o names => ?_, rfl, rfl⟩
  have h : keywordVersion ['v'] ⟨" (HEAD, v3-dev)".toList, [], none⟩ = .ok ⟨"3-dev".toList, some [], some false, none, none⟩ := by
    have hr := refs_read ["HEAD".toList, "v3-dev".toList] (by simp) (by
      intro a ha
      simp only [List.mem_cons, List.not_mem_nil, or_false] at ha
      rcases ha with rfl | rfl
      · refine ⟨by decide, ⟨?_, ?_⟩, by decide, by decide, by decide⟩
        · intro c t e
          have := congrArg List.head? e
          simp at this; subst this; decide
        · intro c t e
          have := congrArg List.getLast? e
          simp at this; subst this; decide
      · refine ⟨by decide, ⟨?_, ?_⟩, by decide, by decide, by decide⟩
        · intro c t e
          have := congrArg List.head? e
          simp at this; subst this; decide
        · intro c t e
          have := congrArg List.getLast? e
          simp at this; subst this; decide)
    have e : " (HEAD, v3-dev)".toList = " (".toList ++ refLine ["HEAD".toList, "v3-dev".toList] ++ ")".toList := by
      simp [refLine]
    unfold keywordVersion
    rw [e, hr.1]
    rw [if_neg (by simp [startsWith, List.isPrefixOf]), hr.2]
    dsimp only
    have ht : tagsOf ["HEAD".toList, "v3-dev".toList] = ["v3-dev".toList] := by decide
    rw [ht]
    simp [startsWith, strip, stripOf]
  unfold getVersions
  rw [h]; rfl

/-- Without `git` and without keywords the name of the directory counts, or of one of the two above
it: the nearest that starts with `popsynth-`. -/
theorem C82_directory (k : Keywords) (o : GitOut) (names : List Text)
    (hk : startsWith "$Format".toList (strip k.refnames) = true) (ho : o.gitDir = none ∨ o.describe = none ∨ o.head = none) :
    (∀ before v after, names = before ++ ("popsynth-".toList ++ v) :: after → before.length < 3 →
      (∀ x ∈ before, ¬ "popsynth-".toList <+: x) →
      getVersions k o names = .ok ⟨v, none, some false, none, none⟩) ∧
    ((∀ x ∈ names.take 3, ¬ "popsynth-".toList <+: x) →
      getVersions k o names = .ok ⟨"0+unknown".toList, none, none, some "unable to compute version".toList, none⟩) := by
  have h2 : keywordVersion ['v'] k = .error .notThisMethod := by
    unfold keywordVersion; rw [if_pos hk]
  have h1 : gitPieces ['v'] o = .error .notThisMethod := by
    unfold gitPieces
    rcases ho with ho | ho | ho
    · rw [ho]
    · rw [ho]; cases o.gitDir <;> rfl
    · rw [ho]; cases o.gitDir <;> cases o.describe <;> rfl
  have hp : ∀ x : Text, startsWith "popsynth-".toList x = true ↔ "popsynth-".toList <+: x :=
    fun x => List.isPrefixOf_iff_prefix
  unfold getVersions
  rw [h1, h2]
  constructor
  · rintro before v after rfl hl hb
    have : ((before ++ ("popsynth-".toList ++ v) :: after).take 3).find? (startsWith "popsynth-".toList) = some ("popsynth-".toList ++ v) := by
      rw [List.find?_eq_some_iff_append]
      refine ⟨(hp _).2 (List.prefix_append _ _), before, after.take (2 - before.length), ?_, ?_⟩
      · rw [List.take_append, List.take_of_length_le (by omega)]
        obtain ⟨m, hm⟩ : ∃ m, 3 - before.length = m + 1 := ⟨2 - before.length, by omega⟩
        rw [hm, List.take_succ_cons, show 2 - before.length = m by omega]
      · intro x hx
        simpa [hp] using (Bool.not_eq_true _).mp (fun hs => hb x hx ((hp x).1 hs))
    have hd : parentdirVersion "popsynth-".toList (before ++ ("popsynth-".toList ++ v) :: after) =
        .ok ⟨v, none, some false, none, none⟩ := by
      unfold parentdirVersion
      rw [this]; rfl
    rw [hd]; rfl
  · intro hn
    have : (names.take 3).find? (startsWith "popsynth-".toList) = none := by
      rw [List.find?_eq_none]
      intro x hx hs
      exact hn x hx ((hp x).1 hs)
    have hd : parentdirVersion "popsynth-".toList names = .error .notThisMethod := by
      unfold parentdirVersion
      rw [this]
    rw [hd]; rfl

/-! ### Examples -/

namespace VersionExample

def git : GitOut := ⟨some ".git".toList, some "v1.2-14-g2414721-dirty\n".toList, some "2414721abc\n".toList, none,
  some "2020-11-17 02:38:00 +0100\n".toList⟩

def archive : Keywords := ⟨"$Format:%d$".toList, [], none⟩

theorem dec14 : decimal 14 = "14".toList := by simp [decimal]

theorem hex_ok : Hex "2414721".toList := ⟨by decide, by decide⟩

theorem format_ok : startsWith "$Format".toList (strip archive.refnames) = true := by decide

example : ∃ v, getVersions archive git [] = .ok v ∧ v.version = "1.2+14.g2414721.dirty".toList ∧ v.dirty = some true := by
  obtain ⟨v, h1, -, h2, -, -, -, h3⟩ := C82_checkout archive git [] "1.2".toList "2414721".toList _ _ _ 14 true format_ok
    (by decide) (by decide) hex_ok rfl rfl rfl (by rw [dec14]; simp [git, described])
  refine ⟨v, h1, ?_, h2⟩
  rw [h3]
  simp [renderPep440, dec14, plusOrDot, dotDirty]

example : isoDate "2020-11-17 02:38:00 +0100\n".toList = "2020-11-17T02:38:00+0100".toList := by decide

example : getVersions archive ⟨none, none, none, none, none⟩ ["site".toList, "popsynth-0.9".toList] =
    .ok ⟨"0.9".toList, none, some false, none, none⟩ :=
  (C82_directory archive _ _ format_ok (Or.inl rfl)).1 ["site".toList] "0.9".toList [] (by simp) (by decide) (by
    intro x hx; rw [List.mem_singleton] at hx; subst hx; decide)

example : matchDescribe "v1.2-rc-14-g2414721".toList = some ("v1.2-rc".toList, "14".toList, "2414721".toList) :=
  (C82_match _ _ _ _).2 ⟨by simp, by decide, by decide, ⟨by decide, by decide⟩, hex_ok⟩

example : matchDescribe "v1.2-g2414721".toList = none := by decide

end VersionExample

end Popsynth
