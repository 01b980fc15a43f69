import Verif.Lemmas.JsonBytes
import Verif.Lemmas.JsonSpelling

/-!
# Scanning JSON on bytes
-/

namespace Verif
open Spec

variable {k : Bool}

/-! ## Numbers and literals -/

/-- The same was found and the rests are alike. -/
def SameTail (k : Bool) (p q : Str × Str) : Prop := p.1 = q.1 ∧ SeenAs k p.2 q.2

theorem alike_digits {t s : Str} (h : SeenAs k t s) : SameTail k (scanDigits t) (scanDigits s) :=
  alike_while digit_ascii h

theorem alike_digits1 {t s : Str} (h : SeenAs k t s) : SameRest k (scanDigits1 t) (scanDigits1 s) := by
  obtain ⟨h1, h2⟩ := alike_digits h
  unfold scanDigits1
  rw [← h1]
  split
  · trivial
  · exact ⟨h1, h2⟩

/-- A character of ASCII is none beyond it. -/
theorem char_beyond {c a : Char} (h : 0x80 ≤ c.toNat) (ha : a.toNat < 0x80) : c ≠ a := by rintro rfl; omega

theorem alike_sign {t s : Str} (h : SeenAs k t s) : SameTail k (scanSign t) (scanSign s) := by
  rcases h.cases with ⟨rfl, rfl⟩ | ⟨c, t', s', rfl, rfl, hc, h'⟩ | ⟨c, t', c', s', rfl, rfl, hc, hc'⟩
  · exact ⟨rfl, h⟩
  · by_cases e : c = '-'
    · subst e; exact ⟨rfl, h'⟩
    · have n : ∀ u, scanSign (c :: u) = ([], c :: u) := fun u => by unfold scanSign; split <;> simp_all
      rw [n, n]; exact ⟨rfl, h⟩
  · have n : ∀ (c : Char) u, 0x80 ≤ c.toNat → scanSign (c :: u) = ([], c :: u) := fun c u hc => by
      unfold scanSign
      split
      · next e => cases e; exact absurd hc (by decide)
      · rfl
    rw [n _ _ hc, n _ _ hc']; exact ⟨rfl, h⟩

theorem alike_expSign {t s : Str} (h : SeenAs k t s) : SameTail k (scanExpSign t) (scanExpSign s) := by
  rcases h.cases with ⟨rfl, rfl⟩ | ⟨c, t', s', rfl, rfl, hc, h'⟩ | ⟨c, t', c', s', rfl, rfl, hc, hc'⟩
  · exact ⟨rfl, h⟩
  · by_cases e : c = '-'
    · subst e; exact ⟨rfl, h'⟩
    · by_cases e' : c = '+'
      · subst e'; exact ⟨rfl, h'⟩
      · have n : ∀ u, scanExpSign (c :: u) = ([], c :: u) := fun u => by unfold scanExpSign; split <;> simp_all
        rw [n, n]; exact ⟨rfl, h⟩
  · have n : ∀ (c : Char) u, 0x80 ≤ c.toNat → scanExpSign (c :: u) = ([], c :: u) := fun c u hc => by
      unfold scanExpSign
      split
      · next e => cases e; exact absurd hc (by decide)
      · next e => cases e; exact absurd hc (by decide)
      · rfl
    rw [n _ _ hc, n _ _ hc']; exact ⟨rfl, h⟩

theorem alike_int {t s : Str} (h : SeenAs k t s) : SameRest k (scanInt t) (scanInt s) := by
  rcases h.cases with ⟨rfl, rfl⟩ | ⟨c, t', s', rfl, rfl, hc, h'⟩ | ⟨c, t', c', s', rfl, rfl, hc, hc'⟩
  · exact alike_digits1 h
  · by_cases e : c = '0'
    · subst e; exact ⟨rfl, h'⟩
    · have n : ∀ u, scanInt (c :: u) = scanDigits1 (c :: u) := fun u => by unfold scanInt; split <;> simp_all
      rw [n, n]; exact alike_digits1 h
  · have n : ∀ (c : Char) u, 0x80 ≤ c.toNat → scanInt (c :: u) = scanDigits1 (c :: u) := fun c u hc => by
      unfold scanInt
      split
      · next e => cases e; exact absurd hc (by decide)
      · rfl
    rw [n _ _ hc, n _ _ hc']; exact alike_digits1 h

theorem SameRest.map {α β : Type} {o o' : Option (α × Str)} (h : SameRest k o o') (f : α → β) :
    SameRest k (o.map fun r => (f r.1, r.2)) (o'.map fun r => (f r.1, r.2)) := by
  match o, o', h with
  | none, none, _ => trivial
  | some (a, t), some (b, s), ⟨h1, h2⟩ => exact ⟨congrArg f h1, h2⟩

theorem alike_fraction {t s : Str} (h : SeenAs k t s) : SameRest k (scanFraction t) (scanFraction s) := by
  rcases h.cases with ⟨rfl, rfl⟩ | ⟨c, t', s', rfl, rfl, hc, h'⟩ | ⟨c, t', c', s', rfl, rfl, hc, hc'⟩
  · exact ⟨rfl, h⟩
  · by_cases e : c = '.'
    · subst e; exact (alike_digits1 h').map ('.' :: ·)
    · have n : ∀ u, scanFraction (c :: u) = some ([], c :: u) := fun u => by unfold scanFraction; split <;> simp_all
      rw [n, n]; exact ⟨rfl, h⟩
  · have n : ∀ (c : Char) u, 0x80 ≤ c.toNat → scanFraction (c :: u) = some ([], c :: u) := fun c u hc => by
      unfold scanFraction
      split
      · next e => cases e; exact absurd hc (by decide)
      · rfl
    rw [n _ _ hc, n _ _ hc']; exact ⟨rfl, h⟩

theorem alike_exponent {t s : Str} (h : SeenAs k t s) : SameRest k (scanExponent t) (scanExponent s) := by
  rcases h.cases with ⟨rfl, rfl⟩ | ⟨c, t', s', rfl, rfl, hc, h'⟩ | ⟨c, t', c', s', rfl, rfl, hc, hc'⟩
  · exact ⟨rfl, h⟩
  · rw [scanExponent, scanExponent]
    split
    · obtain ⟨h1, h2⟩ := alike_expSign h'
      rw [← h1]
      exact (alike_digits1 h2).map fun r => c :: (scanExpSign t').1 ++ r
    · exact ⟨rfl, h⟩
  · rw [scanExponent, scanExponent, if_neg, if_neg]
    · exact ⟨rfl, h⟩
    · rintro (e | e)
      · exact char_beyond hc' (by decide) e
      · exact char_beyond hc' (by decide) e
    · rintro (e | e)
      · exact char_beyond hc (by decide) e
      · exact char_beyond hc (by decide) e

theorem alike_number {t s : Str} (h : SeenAs k t s) : SameRest k (scanNumber t) (scanNumber s) := by
  obtain ⟨h1, h2⟩ := alike_sign h
  have h3 := alike_int h2
  unfold scanNumber
  rw [← h1]
  generalize scanInt (scanSign t).2 = o at h3 ⊢
  generalize scanInt (scanSign s).2 = o' at h3 ⊢
  match o, o', h3 with
  | none, none, _ => trivial
  | some (i, t1), some (_, s1), ⟨rfl, h4⟩ =>
    have h5 := alike_fraction h4
    simp only
    generalize scanFraction t1 = o at h5 ⊢
    generalize scanFraction s1 = o' at h5 ⊢
    match o, o', h5 with
    | none, none, _ => trivial
    | some (f, t2), some (_, s2), ⟨rfl, h6⟩ =>
      have h7 := alike_exponent h6
      simp only
      generalize scanExponent t2 = o at h7 ⊢
      generalize scanExponent s2 = o' at h7 ⊢
      match o, o', h7 with
      | none, none, _ => trivial
      | some (e, t3), some (_, s3), ⟨rfl, h8⟩ => exact ⟨rfl, h8⟩

theorem alike_literal {t s : Str} (h : SeenAs k t s) : SameRest k (scanLiteral t) (scanLiteral s) := by
  unfold scanLiteral
  rcases alike_cut (p := g!"null") (by decide) h with ⟨h1, h2⟩ | ⟨t', s', h1, h2, h3⟩
  · rw [h1, h2]
    rcases alike_cut (p := g!"true") (by decide) h with ⟨h1, h2⟩ | ⟨t', s', h1, h2, h3⟩
    · rw [h1, h2]
      rcases alike_cut (p := g!"false") (by decide) h with ⟨h1, h2⟩ | ⟨t', s', h1, h2, h3⟩
      · rw [h1, h2]
        exact (alike_number h).map Json.num
      · rw [h1, h2]; exact ⟨rfl, h3⟩
    · rw [h1, h2]; exact ⟨rfl, h3⟩
  · rw [h1, h2]; exact ⟨rfl, h3⟩

/-! ## Strings -/

/-- Where the scanner is within a string: `code k` when `k` digits of an escape are still to come. -/
inductive InString where
  | plain
  | esc
  | code (k : Nat)
  | bad

/-- The next character. -/
def InString.step : InString → Char → InString
  | .plain, c => if c = '\\' then .esc else if c = '"' ∨ c.toNat < 0x20 then .bad else .plain
  | .esc, c => if c = 'u' then .code 3 else if c ∈ g!"\"\\/bfnrt" then .plain else .bad
  | .code k, c => if isHexDigit c then (match k with | 0 => .plain | k + 1 => .code k) else .bad
  | .bad, _ => .bad

/-- A text from a state on. -/
abbrev InString.run (st : InString) (s : Str) : InString := s.foldl InString.step st

theorem run_bad (s : Str) : InString.bad.run s = .bad := by
  induction s with
  | nil => rfl
  | cons c s ih => exact ih

theorem hex_ascii (c : Char) (h : 0x80 ≤ c.toNat) : isHexDigit c = false := by
  cases e : isHexDigit c with
  | false => rfl
  | true =>
    have key : ∀ c ∈ g!"0123456789abcdefABCDEF", c.toNat < 0x80 := by decide
    have := key c (isHexDigit_iff.1 e)
    omega

/-- All characters beyond ASCII are the same to the scanner. -/
theorem step_beyond (st : InString) {c : Char} (h : 0x80 ≤ c.toNat) :
    st.step c = match st with | .plain => .plain | _ => .bad := by
  cases st with
  | plain =>
    show (if c = '\\' then _ else _) = _
    rw [if_neg (char_beyond h (by decide)), if_neg]
    rintro (e | e)
    · exact char_beyond h (by decide) e
    · omega
  | esc =>
    show (if c = 'u' then _ else _) = _
    rw [if_neg (char_beyond h (by decide)), if_neg]
    intro e
    have key : ∀ c ∈ g!"\"\\/bfnrt", c.toNat < 0x80 := by decide
    have := key c e
    omega
  | code k =>
    show (if isHexDigit c = true then _ else _) = _
    rw [hex_ascii c h]; rfl
  | bad => rfl

theorem run_beyond (st : InString) {w : Str} (hw : w ≠ []) (h : ∀ c ∈ w, 0x80 ≤ c.toNat) :
    st.run w = match st with | .plain => .plain | _ => .bad := by
  induction w generalizing st with
  | nil => exact absurd rfl hw
  | cons c w ih =>
    show (st.step c).run w = _
    rw [step_beyond st (h c (by simp))]
    by_cases hw' : w = []
    · subst hw'; rfl
    · cases st with
      | plain => exact ih .plain hw' fun x hx => h x (by simp [hx])
      | _ => exact run_bad w

theorem run_repairs {b : Bytes} {s : Str} (h : Rep k b s) (st : InString) : st.run (latin b) = st.run s := by
  have key : ∀ n (b : Bytes) s, b.length ≤ n → Rep k b s → ∀ st : InString, st.run (latin b) = st.run s := by
    intro n
    induction n with
    | zero =>
      intro b s hl h st
      have : b = [] := List.eq_nil_of_length_eq_zero (by omega)
      subst this
      rw [h.eq_nil.1 rfl]; rfl
    | succ n ih =>
      intro b s hl h st
      rcases h.cases with ⟨rfl, rfl⟩ | ⟨x, b', s', rfl, rfl, hx, h'⟩ | ⟨w, b', c, s', rfl, rfl, hw, hx, hc, h'⟩
      · rfl
      · exact ih b' s' (by simp at hl; omega) h' (st.step _)
      · have hwl : 0 < w.length := List.length_pos_iff.2 hw
        rw [latin_append, InString.run, List.foldl_append, ← InString.run, ← InString.run,
          run_beyond st (w := latin w) (by simpa [latin] using hw) (by
            intro c' hc'
            obtain ⟨x, hx', rfl⟩ := List.mem_map.1 hc'
            rw [char_byte]; exact hx x hx'),
          ← step_beyond st hc]
        exact ih b' s' (by simp at hl; omega) h' _
  exact key _ b s (Nat.le_refl _) h st

theorem stringText_run {s : Str} : StringText s ↔ InString.plain.run s = .plain := by
  constructor
  · intro h
    induction h with
    | nil => rfl
    | @char c t h1 h2 h3 _ ih =>
      show (InString.plain.step c).run t = _
      have : InString.plain.step c = .plain := by
        show (if c = '\\' then _ else _) = _
        rw [if_neg h3, if_neg]
        rintro (e | e)
        · exact h2 e
        · omega
      rw [this]; exact ih
    | @short e t h1 _ ih =>
      show (InString.esc.step e).run t = _
      have : InString.esc.step e = .plain := by
        show (if e = 'u' then _ else _) = _
        rw [if_neg (by rintro rfl; revert h1; decide), if_pos h1]
      rw [this]; exact ih
    | @code x t h1 _ ih =>
      obtain ⟨a, b, c, d, rfl, h⟩ := fourHex_iff.1 h1
      simp only [Bool.and_eq_true] at h
      obtain ⟨⟨⟨ha, hb⟩, hc⟩, hd⟩ := h
      show ((((InString.code 3).step a).step b).step c |>.step d).run t = _
      simp only [InString.step, ha, hb, hc, hd, if_true]
      exact ih
  · have key : ∀ n (s : Str), s.length ≤ n → InString.plain.run s = .plain → StringText s := by
      intro n
      induction n with
      | zero =>
        intro s hl _
        have : s = [] := List.eq_nil_of_length_eq_zero (by omega)
        subst this; exact .nil
      | succ n ih =>
        intro s hl h
        have no : ∀ u : Str, InString.bad.run u = .plain → False := fun u hu => by rw [run_bad] at hu; cases hu
        match s, h with
        | [], _ => exact .nil
        | c :: t, h =>
          replace h : (InString.plain.step c).run t = .plain := h
          by_cases hc : c = '\\'
          · subst hc
            match t, h with
            | e :: t, h =>
              replace h : (InString.esc.step e).run t = .plain := h
              by_cases he : e = 'u'
              · subst he
                replace h : (InString.code 3).run t = .plain := h
                match t, h with
                | [], h => cases h
                | a :: t, h =>
                replace h : ((InString.code 3).step a).run t = .plain := h
                cases ha : isHexDigit a with
                | false => simp only [InString.step, ha] at h; exact absurd h (no _)
                | true =>
                simp only [InString.step, ha, if_true] at h
                match t, h with
                | [], h => cases h
                | b :: t, h =>
                replace h : ((InString.code 2).step b).run t = .plain := h
                cases hb : isHexDigit b with
                | false => simp only [InString.step, hb] at h; exact absurd h (no _)
                | true =>
                simp only [InString.step, hb, if_true] at h
                match t, h with
                | [], h => cases h
                | c :: t, h =>
                replace h : ((InString.code 1).step c).run t = .plain := h
                cases hc : isHexDigit c with
                | false => simp only [InString.step, hc] at h; exact absurd h (no _)
                | true =>
                simp only [InString.step, hc, if_true] at h
                match t, h with
                | [], h => cases h
                | d :: t, h =>
                replace h : ((InString.code 0).step d).run t = .plain := h
                cases hd : isHexDigit d with
                | false => simp only [InString.step, hd] at h; exact absurd h (no _)
                | true =>
                simp only [InString.step, hd, if_true] at h
                exact .code (x := [a, b, c, d]) (fourHex_iff.2 ⟨a, b, c, d, rfl, by simp [ha, hb, hc, hd]⟩)
                  (ih t (by simp at hl; omega) h)
              · by_cases he' : e ∈ g!"\"\\/bfnrt"
                · have : InString.esc.step e = .plain := by
                    show (if e = 'u' then _ else _) = _
                    rw [if_neg he, if_pos he']
                  rw [this] at h
                  exact .short he' (ih t (by simp at hl; omega) h)
                · have : InString.esc.step e = .bad := by
                    show (if e = 'u' then _ else _) = _
                    rw [if_neg he, if_neg he']
                  rw [this] at h
                  exact absurd h (no _)
          · by_cases hc' : c = '"' ∨ c.toNat < 0x20
            · have : InString.plain.step c = .bad := by
                show (if c = '\\' then _ else _) = _
                rw [if_neg hc, if_pos hc']
              rw [this] at h
              exact absurd h (no _)
            · have : InString.plain.step c = .plain := by
                show (if c = '\\' then _ else _) = _
                rw [if_neg hc, if_neg hc']
              rw [this] at h
              exact .char (Nat.le_of_not_lt fun e => hc' (.inr e)) (fun e => hc' (.inl e)) hc (ih t (by simp at hl; omega) h)
    exact key _ s (Nat.le_refl _)

/-- ASCII characters at the beginning of the text are the bytes at the beginning. -/
theorem repairs_ascii_cons {b : Bytes} {c : Char} {s : Str} (h : Rep k b (c :: s)) (hc : c.toNat < 0x80) :
    ∃ b', b = UInt8.ofNat c.toNat :: b' ∧ Rep k b' s := by
  rcases h.cases with ⟨-, e⟩ | ⟨x, b', s', rfl, e, hx, h'⟩ | ⟨w, b', c', s', rfl, e, hw, hx, hc', h'⟩
  · cases e
  · obtain ⟨e1, rfl⟩ := List.cons.inj e
    exact ⟨b', by rw [byte_of_char e1.symm], h'⟩
  · cases e; omega

theorem starts_ascii {x : UInt8} (hx : x.toNat < 0x80) (b : Bytes) : Starts (x :: b) := by
  intro y t e
  cases e
  simp [runeStart, hx]

/-- Strings are scanned alike, byte by byte and character by character. -/
theorem repairs_scanString {b : Bytes} {s : Str} (h : Rep k b s) :
    (scanStringB b = none ∧ scanString s = none) ∨
    ∃ raw r raw' r', scanStringB b = some (raw, r) ∧ scanString s = some (raw', r') ∧ Rep k raw raw' ∧ Rep k r r' ∧
      StringText raw' := by
  have h34 : UInt8.ofNat '"'.toNat = 34 := by decide
  cases e : scanString (latin b) with
  | some p =>
    obtain ⟨raw, r⟩ := p
    obtain ⟨e1, e2⟩ := scanString_sound _ _ _ e
    rw [List.append_assoc] at e1
    obtain ⟨x, y, rfl, rfl, ey⟩ := latin_div e1
    match y, ey with
    | q :: y, ey =>
      obtain ⟨eq, rfl⟩ := List.cons.inj (show Char.ofNat q.toNat :: latin y = '"' :: r from ey)
      have hq : q = 34 := by rw [byte_of_char eq, h34]
      subst hq
      obtain ⟨s1, s2, rfl, h1, h2⟩ := h.split rfl (starts_ascii (by decide) y)
      have h2' : ∃ s2', s2 = '"' :: s2' ∧ Rep k y s2' := by
        rcases h2.cases with ⟨e, -⟩ | ⟨x', b', s', e, rfl, hx, h'⟩ | ⟨w, b', c, s', e, rfl, hw, hx, hc, h'⟩
        · cases e
        · cases e; exact ⟨s', rfl, h'⟩
        · cases w with
          | nil => exact absurd rfl hw
          | cons z w =>
            cases e
            exact absurd (hx 34 (by simp)) (by decide)
      obtain ⟨s2', rfl, h3⟩ := h2'
      have hst : StringText s1 := by
        rw [stringText_run, ← run_repairs h1, ← stringText_run]; exact e2
      refine .inr ⟨x, y, s1, s2', ?_, ?_, h1, h3, hst⟩
      · unfold scanStringB; rw [e]; simp [unlatin_latin]
      · have := scanString_complete hst s2'
        rwa [List.append_assoc] at this
  | none =>
    refine .inl ⟨by unfold scanStringB; rw [e]; rfl, ?_⟩
    cases e' : scanString s with
    | none => rfl
    | some p =>
      exfalso
      obtain ⟨raw, r⟩ := p
      obtain ⟨rfl, e2⟩ := scanString_sound _ _ _ e'
      rw [List.append_assoc] at h
      obtain ⟨x, y, rfl, h1, h2⟩ := h.divide
      obtain ⟨y', rfl, h3⟩ := repairs_ascii_cons (c := '"') (s := r) h2 (by decide)
      have hst : StringText (latin x) := by
        rw [stringText_run, run_repairs h1, ← stringText_run]; exact e2
      have := scanString_complete hst (latin y')
      rw [List.append_assoc] at this
      rw [latin_append] at e
      have e3 : latin (UInt8.ofNat '"'.toNat :: y') = g!"\"" ++ latin y' := rfl
      rw [e3, this] at e
      cases e

end Verif
