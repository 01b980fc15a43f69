import Verif.Lemmas.JsonBytesValue
import Verif.Lemmas.JsonPrint

/-!
# Quoting strings of any bytes
-/

namespace Verif
open Spec

theorem stringText_append {a t : Str} (ha : StringText a) (ht : StringText t) : StringText (a ++ t) := by
  rw [stringText_run] at ha ht ⊢
  rw [InString.run, List.foldl_append]
  unfold InString.run at ha ht
  rw [ha, ht]

theorem html_piece (html : Bool) (s : Str) : (s.flatMap fun c => if html then escapeHtmlChar c else [c]) = htmlText html s := by
  cases html
  · simp [htmlText]
  · simp [htmlText]

theorem stringText_piece (html : Bool) (c : Char) : StringText (htmlText html (jsonEscapeChar c)) := by
  have h := stringText_escape c .nil
  rw [List.append_nil] at h
  cases html
  · exact h
  · exact stringText_html h

/-- One more character. -/
theorem units_piece (html : Bool) (c : Char) {rest s : Str} {us : List (Char ⊕ Nat)} (h1 : unescapeUnits rest = some us)
    (h : PlainUnits us s) :
    ∃ us', unescapeUnits (htmlText html (jsonEscapeChar c) ++ rest) = some us' ∧ PlainUnits us' (c :: s) := by
  obtain ⟨h2, h3⟩ := h
  have := escaped_char html c
  generalize htmlText html (jsonEscapeChar c) = e at this
  cases this with
  | self hc =>
    refine ⟨.inl c :: us, ?_, by simp [h2], by simpa using h3⟩
    show unescapeUnits (c :: rest) = _
    unfold unescapeUnits
    split
    · next h => cases h
    · next h => simp at h; exact absurd h.1 hc
    · next h => simp at h; exact absurd h.1 hc
    · next h => cases h; rw [if_neg hc, h1]; rfl
  | letter x _ hx e =>
    subst e
    exact ⟨.inl c :: us, by rw [hx, h1]; rfl, by simp [h2], by simpa using h3⟩
  | number a b d e hx hs =>
    refine ⟨.inr c.toNat :: us, ?_, by simp [h2], ?_⟩
    · show unescapeUnits ('\\' :: 'u' :: a :: b :: d :: e :: rest) = _
      simp [unescapeUnits, hx, h1]
    · intro n hn
      rcases List.mem_cons.1 hn with e | hn
      · cases e; exact hs
      · exact h3 n hn

/-- A byte that is part of no character. -/
theorem units_replaced {rest s : Str} {us : List (Char ⊕ Nat)} (h1 : unescapeUnits rest = some us) (h : PlainUnits us s) :
    ∃ us', unescapeUnits (g!"\\ufffd" ++ rest) = some us' ∧ PlainUnits us' (Char.ofNat 0xFFFD :: s) := by
  obtain ⟨h2, h3⟩ := h
  refine ⟨.inr 0xFFFD :: us, ?_, by simp [h2], ?_⟩
  · show unescapeUnits ('\\' :: 'u' :: 'f' :: 'f' :: 'f' :: 'd' :: rest) = _
    rw [units_code (n := 0xFFFD) (by decide), h1]; rfl
  · intro n hn
    rcases List.mem_cons.1 hn with e | hn
    · cases e; omega
    · exact h3 n hn

theorem stringText_replaced : StringText g!"\\ufffd" :=
  .code (x := g!"fffd") (t := []) ⟨rfl, by decide⟩ .nil

theorem quoteLoop_spec (html : Bool) : ∀ n (b : Bytes), b.length ≤ n →
    ∃ t us, quoteLoop html n b = utf8 t ∧ StringText t ∧ unescapeUnits t = some us ∧ PlainUnits us (repairLoop n b) := by
  intro n
  induction n with
  | zero => intro b h; exact ⟨[], [], rfl, .nil, rfl, rfl, by simp⟩
  | succ n ih =>
    intro b h
    by_cases hb : b = []
    · subst hb
      exact ⟨[], [], rfl, .nil, rfl, rfl, by simp⟩
    · rw [quoteLoop, repairLoop, if_neg hb, if_neg hb]
      simp only
      rcases decodeRune_cases hb with ⟨e, hx⟩ | ⟨c, x, rfl, e⟩
      · cases b with
        | nil => exact absurd rfl hb
        | cons y b =>
          rw [e, if_pos rfl]
          obtain ⟨t, us, e1, e2, e3, e4⟩ := ih b (by simp at h; omega)
          obtain ⟨us', e5, e6⟩ := units_replaced e3 e4
          refine ⟨g!"\\ufffd" ++ t, us', ?_, stringText_append stringText_replaced e2, e5, e6⟩
          show utf8 g!"\\ufffd" ++ quoteLoop html n b = _
          rw [e1, utf8, utf8, utf8, List.flatMap_append]
      · have hp := bytesOf_pos c
        have hne : decodeRune (bytesOf c ++ x) ≠ runeError := by
          rw [e]
          intro he
          have h1 := (Prod.mk.inj he).1
          have h2 := (Prod.mk.inj he).2
          rcases bytesOf_cases c with ⟨h', -⟩ | ⟨h', h'', b0, b1, eb, -⟩ | ⟨h', h'', b0, b1, b2, eb, -⟩ | ⟨h', b0, b1, b2, b3, eb, -⟩
          · omega
          all_goals rw [eb] at h2; cases h2
        rw [if_neg hne, e]
        simp only [Char.ofNat_toNat, List.drop_left]
        obtain ⟨t, us, e1, e2, e3, e4⟩ := ih x (by simp at h; omega)
        obtain ⟨us', e5, e6⟩ := units_piece html c e3 e4
        refine ⟨htmlText html (jsonEscapeChar c) ++ t, us', ?_, stringText_append (stringText_piece html c) e2, e5, e6⟩
        rw [e1, html_piece, utf8, utf8, utf8, List.flatMap_append]

/-- What is written for a Go string is text, stands between quotes, and means the repaired string. -/
theorem quoteB_spec (html : Bool) (b : Bytes) :
    ∃ t, quoteB html b = utf8 t ∧ StringText t ∧ unescape t = some (repair b) := by
  obtain ⟨t, us, e1, e2, e3, e4⟩ := quoteLoop_spec html b.length b (Nat.le_refl _)
  exact ⟨t, e1, e2, by rw [unescape_map e3, combine_plain _ _ e4]; rfl⟩

theorem unquote_quote (html : Bool) (b : Bytes) : unquoteB (quoteB html b) = some (utf8 (repair b)) := by
  obtain ⟨t, e1, e2, e3⟩ := quoteB_spec html b
  rw [e1, unquoteB_repairs (rep_utf8 t) e2, e3]
  rfl

theorem scan_quote (html : Bool) (b r : Bytes) : scanStringB (quoteB html b ++ 34 :: r) = some (quoteB html b, r) := by
  obtain ⟨t, e1, e2, e3⟩ := quoteB_spec html b
  have hst : StringText (latin (utf8 t)) := by
    rw [stringText_run, run_repairs (rep_utf8 t), ← stringText_run]; exact e2
  have := scanString_complete hst (latin r)
  unfold scanStringB
  rw [e1, latin_append]
  have e4 : latin (34 :: r) = g!"\"" ++ latin r := rfl
  rw [e4, ← List.append_assoc, this]
  simp [unlatin_latin]

theorem quoteLoop_utf8 (html : Bool) : ∀ n (s : Str), (utf8 s).length ≤ n →
    quoteLoop html n (utf8 s) = utf8 (s.flatMap fun c => htmlText html (jsonEscapeChar c)) := by
  intro n
  induction n with
  | zero =>
    intro s h
    have : s = [] := utf8_eq_nil.1 (List.eq_nil_of_length_eq_zero (by omega))
    subst this; rfl
  | succ n ih =>
    intro s h
    cases s with
    | nil => rfl
    | cons c s =>
      have hu : utf8 (c :: s) = bytesOf c ++ utf8 s := rfl
      rw [hu] at h ⊢
      have e := decodeRune_bytesOf c (utf8 s)
      have hp := bytesOf_pos c
      have hne : decodeRune (bytesOf c ++ utf8 s) ≠ runeError := by
        rw [e]
        intro he
        have h1 := (Prod.mk.inj he).1
        have h2 := (Prod.mk.inj he).2
        rcases bytesOf_cases c with ⟨h', -⟩ | ⟨h', h'', b0, b1, eb, -⟩ | ⟨h', h'', b0, b1, b2, eb, -⟩ | ⟨h', b0, b1, b2, b3, eb, -⟩
        · omega
        all_goals rw [eb] at h2; cases h2
      rw [quoteLoop, if_neg (by simp [bytesOf_ne_nil])]
      simp only
      rw [if_neg hne, e]
      simp only [Char.ofNat_toNat, List.drop_left]
      rw [ih s (by simp only [List.length_append] at h; omega), html_piece, List.flatMap_cons]
      simp only [utf8, List.flatMap_append]

theorem quoteB_utf8 (html : Bool) (s : Str) : quoteB html (utf8 s) = utf8 (htmlText html (s.flatMap jsonEscapeChar)) := by
  rw [htmlText_flatMap]
  exact quoteLoop_utf8 html _ s (Nat.le_refl _)

end Verif
