import Verif.Lemmas.JsonBytesScan

/-!
# Unquoting JSON strings on bytes
-/

namespace Verif
open Spec

variable {k : Bool}

/-- One step of unquoting. -/
theorem unquoteLoop_cons (n : Nat) (c : UInt8) (t : Bytes) : unquoteLoop (n + 1) (c :: t) =
    if c = 92 then
      match getu4 (c :: t) with
      | some (u, r) =>
        if 0xD800 ≤ u ∧ u < 0xE000 then
          match getu4 r with
          | some (u2, r2) =>
            if u < 0xDC00 ∧ 0xDC00 ≤ u2 ∧ u2 < 0xE000 then
              (unquoteLoop n r2).map (bytesOf (Char.ofNat (0x10000 + (u - 0xD800) * 0x400 + (u2 - 0xDC00))) ++ ·)
            else (unquoteLoop n r).map (bytesOf (Char.ofNat 0xFFFD) ++ ·)
          | none => (unquoteLoop n r).map (bytesOf (Char.ofNat 0xFFFD) ++ ·)
        else (unquoteLoop n r).map (bytesOf (Char.ofNat u) ++ ·)
      | none =>
        match t with
        | [] => none
        | e :: t =>
          match shortEscape e with
          | none => none
          | some x => (unquoteLoop n t).map (x :: ·)
    else if c = 34 ∨ c.toNat < 0x20 then none
    else (unquoteLoop n ((c :: t).drop (decodeRune (c :: t)).2)).map (bytesOf (Char.ofNat (decodeRune (c :: t)).1) ++ ·) := rfl

theorem hex_some {c : Char} (h : isHexDigit c = true) : ∃ n, hexVal c = some n ∧ n < 16 := by
  have key : ∀ c ∈ g!"0123456789abcdefABCDEF", (hexVal c).any (· < 16) = true := by decide
  have := key c (isHexDigit_iff.1 h)
  cases e : hexVal c with
  | none => rw [e] at this; cases this
  | some n => rw [e] at this; exact ⟨n, rfl, by simpa using this⟩

theorem hex4_some {a b c d : Char} (h : (isHexDigit a && isHexDigit b && isHexDigit c && isHexDigit d) = true) :
    ∃ n, hex4 a b c d = some n ∧ n < 0x10000 := by
  simp only [Bool.and_eq_true] at h
  obtain ⟨⟨⟨ha, hb⟩, hc⟩, hd⟩ := h
  obtain ⟨na, ea, la⟩ := hex_some ha
  obtain ⟨nb, eb, lb⟩ := hex_some hb
  obtain ⟨nc, ec, lc⟩ := hex_some hc
  obtain ⟨nd, ed, ld⟩ := hex_some hd
  refine ⟨((na * 16 + nb) * 16 + nc) * 16 + nd, by simp [hex4, ea, eb, ec, ed], by omega⟩

/-- The characters of ASCII hexadecimal digits. -/
theorem hex_lt {c : Char} (h : isHexDigit c = true) : c.toNat < 0x80 := by
  refine Nat.lt_of_not_le fun e => ?_
  rw [hex_ascii c e] at h; cases h

/-- An escape by a number, on bytes. -/
theorem repairs_code {b : Bytes} {x t : Str} (h1 : FourHex x) (h : Rep k b (g!"\\u" ++ x ++ t)) :
    ∃ n r, getu4 b = some (n, r) ∧ Rep k r t ∧ n < 0x10000 ∧ r.length < b.length ∧ b.head? = some 92 ∧
      unescapeUnits (g!"\\u" ++ x ++ t) = (unescapeUnits t).map (.inr n :: ·) := by
  obtain ⟨a, b', c, d, rfl, hh⟩ := fourHex_iff.1 h1
  obtain ⟨n, hn, hlt⟩ := hex4_some hh
  simp only [Bool.and_eq_true] at hh
  obtain ⟨⟨⟨ha, hb⟩, hc⟩, hd⟩ := hh
  replace h : Rep k b ('\\' :: 'u' :: a :: b' :: c :: d :: t) := h
  obtain ⟨r1, rfl, g1⟩ := repairs_ascii_cons h (by decide)
  obtain ⟨r2, rfl, g2⟩ := repairs_ascii_cons g1 (by decide)
  obtain ⟨r3, rfl, g3⟩ := repairs_ascii_cons g2 (hex_lt ha)
  obtain ⟨r4, rfl, g4⟩ := repairs_ascii_cons g3 (hex_lt hb)
  obtain ⟨r5, rfl, g5⟩ := repairs_ascii_cons g4 (hex_lt hc)
  obtain ⟨r6, rfl, g6⟩ := repairs_ascii_cons g5 (hex_lt hd)
  have back : ∀ c : Char, c.toNat < 0x80 → Char.ofNat (UInt8.ofNat c.toNat).toNat = c := by
    intro c hc
    rw [byte_ofNat (by omega), Char.ofNat_toNat]
  refine ⟨n, r6, ?_, g6, hlt, by simp only [List.length_cons]; omega, rfl, units_code hn⟩
  rw [getu4, if_pos (by decide), back _ (hex_lt ha), back _ (hex_lt hb), back _ (hex_lt hc), back _ (hex_lt hd), hn]
  rfl

/-- What stands at the beginning of a string, on bytes and in the text. -/
theorem units_head {b : Bytes} {t : Str} (h : Rep k b t) (ht : StringText t) :
    (getu4 b = none ∧ ∀ us, unescapeUnits t = some us → ∀ m us', us ≠ .inr m :: us') ∨
    ∃ m r t', getu4 b = some (m, r) ∧ Rep k r t' ∧ StringText t' ∧ m < 0x10000 ∧ r.length < b.length ∧
      unescapeUnits t = (unescapeUnits t').map (.inr m :: ·) := by
  cases ht with
  | nil =>
    left
    rw [h.eq_nil.2 rfl]
    refine ⟨rfl, ?_⟩
    rintro us h m us' rfl
    cases h
  | @char c t h1 h2 h3 ht =>
    left
    constructor
    · have hh : ∀ r, b ≠ 92 :: r := by
        rintro r rfl
        rcases h.cases with ⟨e, -⟩ | ⟨x, b', s', e, e', hx, h'⟩ | ⟨w, b', c, s', e, e', hw, hx, hc, h'⟩
        · cases e
        · cases e; cases e'; exact h3 rfl
        · cases w with
          | nil => exact hw rfl
          | cons z w => cases e; exact absurd (hx 92 (by simp)) (by decide)
      unfold getu4
      split
      · rw [if_neg]
        rintro ⟨rfl, -⟩
        exact hh _ rfl
      · rfl
    · intro us hu m us' e
      subst e
      rw [unescapeUnits] at hu
      · rw [if_neg h3, Option.map_eq_some_iff] at hu
        obtain ⟨_, -, e⟩ := hu
        cases e
      · intro a b c d t e; exact absurd e h3
      · intro a b e; exact absurd e h3
  | @short e t h1 ht =>
    left
    have hu : e ≠ 'u' := by rintro rfl; revert h1; decide
    have hlt : e.toNat < 0x80 := by
      have key : ∀ c ∈ g!"\"\\/bfnrt", c.toNat < 0x80 := by decide
      exact key e h1
    constructor
    · obtain ⟨r1, rfl, g1⟩ := repairs_ascii_cons h (by decide)
      obtain ⟨r2, rfl, g2⟩ := repairs_ascii_cons g1 hlt
      unfold getu4
      split
      · next heq =>
        cases heq
        rw [if_neg]
        rintro ⟨-, e'⟩
        apply hu
        have : e.toNat = 117 := by
          have := congrArg UInt8.toNat e'
          rwa [byte_ofNat (by omega)] at this
        rw [← Char.ofNat_toNat e, this]
      · rfl
    · intro us hus m us' e'
      subst e'
      rw [unescapeUnits] at hus
      · repeat' split at hus
        all_goals first
          | cases hus; done
          | (rw [Option.map_eq_some_iff] at hus; obtain ⟨_, -, e⟩ := hus; cases e)
      · rintro a b c d t rfl; exact absurd rfl hu
  | @code x t h1 ht =>
    right
    obtain ⟨n, r, e1, e2, e3, e4, -, e5⟩ := repairs_code h1 h
    exact ⟨n, r, t, e1, e2, ht, e3, e4, e5⟩

theorem units_some {t : Str} (h : StringText t) : ∃ us, unescapeUnits t = some us := by
  induction h with
  | nil => exact ⟨[], rfl⟩
  | @char c t h1 h2 h3 _ ih =>
    obtain ⟨us, hus⟩ := ih
    refine ⟨.inl c :: us, ?_⟩
    rw [unescapeUnits]
    · rw [if_neg h3, hus]; rfl
    · intro a b c d t e; exact absurd e h3
    · intro a b e; exact absurd e h3
  | @short e t h1 _ ih =>
    obtain ⟨us, hus⟩ := ih
    have hu : e ≠ 'u' := by rintro rfl; revert h1; decide
    rw [unescapeUnits, hus]
    · have h1' : e = '"' ∨ e = '\\' ∨ e = '/' ∨ e = 'b' ∨ e = 'f' ∨ e = 'n' ∨ e = 'r' ∨ e = 't' := by simpa using h1
      rcases h1' with rfl | rfl | rfl | rfl | rfl | rfl | rfl | rfl <;> exact ⟨_, rfl⟩
    · rintro a b c d t rfl; exact absurd rfl hu
  | @code x t h1 _ ih =>
    obtain ⟨us, hus⟩ := ih
    obtain ⟨a, b', c, d, rfl, hh⟩ := fourHex_iff.1 h1
    obtain ⟨n, hn, hlt⟩ := hex4_some hh
    exact ⟨.inr n :: us, by
      show unescapeUnits ('\\' :: 'u' :: a :: b' :: c :: d :: t) = _
      rw [units_code hn, hus]; rfl⟩

/-- The first byte of a character. -/
theorem bytesOf_head (c : Char) : ∃ x w, bytesOf c = x :: w ∧ ((c.toNat < 0x80 ∧ x.toNat = c.toNat) ∨ 0x80 ≤ x.toNat) := by
  rcases Nat.lt_or_ge c.toNat 0x80 with hc | hc
  · refine ⟨UInt8.ofNat c.toNat, [], ?_, .inl ⟨hc, byte_ofNat (by omega)⟩⟩
    unfold bytesOf; simp only [hc, if_true]
  · cases e : bytesOf c with
    | nil => exact absurd e (bytesOf_ne_nil c)
    | cons x w => exact ⟨x, w, rfl, .inr (bytesOf_ge hc x (by rw [e]; simp))⟩

/-- A character that is not escaped. -/
theorem unquote_char {n : Nat} {b : Bytes} {c : Char} {t : Str} (h : Rep k b (c :: t)) (h1 : 0x20 ≤ c.toNat) (h2 : c ≠ '"')
    (h3 : c ≠ '\\') : ∃ r, Rep k r t ∧ r.length < b.length ∧ unquoteLoop (n + 1) b = (unquoteLoop n r).map (bytesOf c ++ ·) := by
  have step : ∀ (x : UInt8) (w : Bytes), ((c.toNat < 0x80 ∧ x.toNat = c.toNat) ∨ 0x80 ≤ x.toNat) →
      unquoteLoop (n + 1) (x :: w) = (unquoteLoop n ((x :: w).drop (decodeRune (x :: w)).2)).map
        (bytesOf (Char.ofNat (decodeRune (x :: w)).1) ++ ·) := by
    intro x w hx
    have ne : ∀ m : Nat, m < 0x80 → c ≠ Char.ofNat m → x ≠ UInt8.ofNat m := by
      rintro m hm hc rfl
      rw [byte_ofNat (by omega)] at hx
      rcases hx with ⟨-, e⟩ | e
      · exact hc (by rw [e, Char.ofNat_toNat])
      · omega
    rw [unquoteLoop_cons, if_neg (show x ≠ 92 from ne 92 (by omega) h3), if_neg]
    rintro (e | e)
    · exact ne 34 (by omega) h2 e
    · omega
  cases h with
  | @char _ r _ h =>
    obtain ⟨x, w, e, hx⟩ := bytesOf_head c
    refine ⟨r, h, ?_, ?_⟩
    · have := bytesOf_pos c
      simp only [List.length_append]; omega
    · have hd := decodeRune_bytesOf c r
      have := step x (w ++ r) hx
      rw [← List.cons_append, ← e, hd] at this
      simpa using this
  | @other x r _ hk hx h =>
    refine ⟨r, h, by simp, ?_⟩
    have hd : decodeRune (x :: r) = runeError := by
      rcases decodeRune_cases (s := x :: r) (by simp) with ⟨e, -⟩ | ⟨d, y, e, -⟩
      · exact e
      · exact absurd e (hx d y)
    have := step x r (.inr (other_ge hx))
    rw [hd] at this
    exact this

theorem utf8_unit {n : Nat} : bytesOf (unitChar n) = utf8 [unitChar n] := by simp [utf8]

theorem combine_single (n : Nat) {us : List (Char ⊕ Nat)} (h : ∀ m us', us ≠ .inr m :: us') :
    combineUnits (.inr n :: us) = unitChar n :: combineUnits us := by
  match us with
  | [] => rfl
  | .inl c :: us => simp [combineUnits]
  | .inr m :: us => exact absurd rfl (h m us)

theorem unescape_map {t : Str} {us : List (Char ⊕ Nat)} (h : unescapeUnits t = some us) : unescape t = some (combineUnits us) := by
  rw [unescape, h]; rfl

/-- **A string of any bytes is unquoted as its repaired text is.** -/
theorem unquote_repairs : ∀ n (b : Bytes) (t : Str), b.length ≤ n → Rep k b t → StringText t →
    unquoteLoop n b = (unescape t).map utf8 := by
  intro n
  induction n using Nat.strongRecOn with
  | _ n ih =>
    intro b t hl h ht
    cases n with
    | zero =>
      have : b = [] := List.eq_nil_of_length_eq_zero (by omega)
      subst this
      rw [h.eq_nil.1 rfl]; rfl
    | succ n =>
      obtain ⟨us0, hus0⟩ := units_some ht
      cases ht with
      | nil =>
        rw [h.eq_nil.2 rfl]
        rfl
      | @char c t h1 h2 h3 ht =>
        obtain ⟨r, hr, hlt, e⟩ := unquote_char (n := n) h h1 h2 h3
        obtain ⟨us, hus⟩ := units_some ht
        rw [e, ih n (by omega) r t (by omega) hr ht, unescape_map hus]
        have : unescapeUnits (c :: t) = some (.inl c :: us) := by
          rw [unescapeUnits]
          · rw [if_neg h3, hus]; rfl
          · intro a b c d t e; exact absurd e h3
          · intro a b e; exact absurd e h3
        rw [unescape_map this]
        simp [combineUnits, utf8]
      | @short e t h1 ht =>
        obtain ⟨us, hus⟩ := units_some ht
        have hu : e ≠ 'u' := by rintro rfl; revert h1; decide
        have hlt : e.toNat < 0x80 := by
          have key : ∀ c ∈ g!"\"\\/bfnrt", c.toNat < 0x80 := by decide
          exact key e h1
        have hg : getu4 b = none := by
          rcases units_head h (.short h1 ht) with ⟨hg, -⟩ | ⟨m, r, t', -, -, -, -, -, e'⟩
          · exact hg
          · exfalso
            have h1' : e = '"' ∨ e = '\\' ∨ e = '/' ∨ e = 'b' ∨ e = 'f' ∨ e = 'n' ∨ e = 'r' ∨ e = 't' := by simpa using h1
            rw [unescapeUnits, hus] at e'
            · cases e2 : unescapeUnits t' with
              | none => rw [e2] at e'; rcases h1' with rfl | rfl | rfl | rfl | rfl | rfl | rfl | rfl <;> cases e'
              | some us' => rw [e2] at e'; rcases h1' with rfl | rfl | rfl | rfl | rfl | rfl | rfl | rfl <;> cases e'
            · rintro a b c d t rfl; exact absurd rfl hu
        obtain ⟨r1, rfl, g1⟩ := repairs_ascii_cons h (by decide)
        obtain ⟨r2, rfl, g2⟩ := repairs_ascii_cons g1 hlt
        have hrec := ih n (by omega) r2 t (by simp only [List.length_cons] at hl; omega) g2 ht
        rw [unquoteLoop_cons, if_pos (by decide), hg]
        simp only
        have h1' : e = '"' ∨ e = '\\' ∨ e = '/' ∨ e = 'b' ∨ e = 'f' ∨ e = 'n' ∨ e = 'r' ∨ e = 't' := by simpa using h1
        have key : ∃ x d, shortEscape (UInt8.ofNat e.toNat) = some x ∧ bytesOf d = [x] ∧
            unescapeUnits ('\\' :: e :: t) = some (.inl d :: us) := by
          rw [unescapeUnits, hus]
          · rcases h1' with rfl | rfl | rfl | rfl | rfl | rfl | rfl | rfl
            all_goals exact ⟨_, _, rfl, by decide, rfl⟩
          · rintro a b c d t rfl; exact absurd rfl hu
        obtain ⟨x, d, hx, hd, hus2⟩ := key
        rw [hx, unescape_map hus2]
        simp only
        rw [hrec, unescape_map hus]
        simp [combineUnits, utf8, hd]
      | @code x t h1 ht =>
        obtain ⟨us, hus⟩ := units_some ht
        obtain ⟨m, r, hg, hr, hm, hlt, hhead, e5⟩ := repairs_code h1 h
        rw [hus] at e5
        have e6 := unescape_map (us := .inr m :: us) (by rw [e5]; rfl)
        rw [e6]
        obtain ⟨b, rfl⟩ : ∃ b', b = 92 :: b' := by
          cases b with
          | nil => cases hhead
          | cons y b => exact ⟨b, by rw [Option.some.inj hhead]⟩
        rw [unquoteLoop_cons, if_pos rfl, hg]
        simp only
        have hrec := ih n (by omega) r t (by omega) hr ht
        rw [unescape_map hus] at hrec
        by_cases hs : 0xD800 ≤ m ∧ m < 0xE000
        · rw [if_pos hs]
          have hu : unitChar m = Char.ofNat 0xFFFD := by unfold unitChar; rw [if_pos hs]
          rcases units_head hr ht with ⟨hg2, hno⟩ | ⟨m2, r2, t2, hg2, hr2, ht2, hm2, hlt2, e7⟩
          · rw [hg2, combine_single m (hno us hus), hu]
            simp only
            rw [hrec]
            simp [utf8]
          · obtain ⟨us2, hus2⟩ := units_some ht2
            rw [hg2]
            rw [hus, hus2] at e7
            cases e7
            simp only
            rw [combineUnits]
            by_cases hp : m < 0xDC00 ∧ 0xDC00 ≤ m2 ∧ m2 < 0xE000
            · rw [if_pos hp, if_pos ⟨⟨hs.1, hp.1⟩, hp.2⟩, ih n (by omega) r2 t2 (by omega) hr2 ht2, unescape_map hus2]
              simp [utf8]
            · rw [if_neg hp, if_neg (fun hh => hp ⟨hh.1.2, hh.2⟩), hrec, hu]
              simp [utf8]
        · rw [if_neg hs]
          have hu : unitChar m = Char.ofNat m := by unfold unitChar; rw [if_neg hs]
          have hc : combineUnits (.inr m :: us) = unitChar m :: combineUnits us := by
            match us with
            | [] => rfl
            | .inl c :: us => simp [combineUnits]
            | .inr m2 :: us =>
              rw [combineUnits, if_neg (fun hh => hs ⟨hh.1.1, by omega⟩)]
          rw [hc, hu, hrec]
          simp [utf8]

theorem unquoteB_repairs {b : Bytes} {t : Str} (h : Rep k b t) (ht : StringText t) : unquoteB b = (unescape t).map utf8 :=
  unquote_repairs _ b t (Nat.le_refl _) h ht

end Verif
