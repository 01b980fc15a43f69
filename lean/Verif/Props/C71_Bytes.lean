import Verif.Lemmas.BytesFrom

/-!
# C71: text in any script, and bytes that are no text, are read and written as they are

A Go string is a sequence of bytes.  The properties of the other files speak of characters; here the tag-value reader,
the printing of the writer and the string functions they use are modelled on bytes, and the two views are proved to agree
on every text in UTF-8.  On bytes that are not UTF-8 the reader still fails or returns only bytes of its input, and
fields of any bytes survive a round trip.
-/

namespace Verif
open Spec

/-- The bytes of every text in UTF-8 are read as the text is: the same failure, or the bytes of the same fields. -/
theorem C71_read (text : Str) :
    readTagValuesB (utf8 text) = (readTagValues text >>= fun ps => .ok (ps.map pairBytes)) :=
  readTagValuesB_utf8 text

/-- What is read from UTF-8 is UTF-8: no character is torn apart. -/
theorem C71_text_stays_text (text : Bytes) (ht : IsText text) (ps : List BPair) (h : readTagValuesB text = .ok ps) :
    ∀ p ∈ ps, IsText p.tag ∧ IsText p.value := by
  obtain ⟨s, rfl⟩ := ht
  rw [C71_read] at h
  cases hr : readTagValues s with
  | err => rw [hr] at h; cases h
  | panic => rw [hr] at h; cases h
  | ok qs =>
    rw [hr] at h
    cases h
    intro p hp
    obtain ⟨q, -, rfl⟩ := List.mem_map.1 hp
    exact ⟨⟨q.tag, rfl⟩, ⟨q.value, rfl⟩⟩

/-- Any bytes at all: reading never panics. -/
theorem C71_no_panic (text : Bytes) : readTagValuesB text ≠ .panic := readTagValuesB_ne_panic text

/-- Any bytes at all: whatever is read is made of bytes of the input. No byte is changed or invented; in
particular no byte that is not UTF-8 becomes a replacement character. -/
theorem C71_nothing_invented (text : Bytes) (ps : List BPair) (h : readTagValuesB text = .ok ps) :
    ∀ p ∈ ps, MadeOf text p.tag ∧ MadeOf text p.value :=
  readTagValuesB_madeOf h

/-- The writer prints a field of any bytes in the line format. -/
theorem C71_field_written (p : BPair) : emitFieldB p = fieldBytes p := by
  unfold emitFieldB fieldBytes textifyB
  have : containsB (utf8 g!"\n") p.value = true ↔ (10 : UInt8) ∈ p.value := by
    rw [lit_newline]
    unfold containsB
    constructor
    · intro h
      obtain ⟨⟨a, b⟩, h⟩ := Option.isSome_iff_exists.1 h
      rw [cutB_eq h]; simp
    · intro h
      obtain ⟨a, b, e, ha⟩ := first_line h
      rw [e, cutB_single ha]; rfl
  by_cases h : (10 : UInt8) ∈ p.value
  · rw [if_pos (this.2 h), if_pos h, lit_newline]
  · rw [if_neg (fun h' => h (this.1 h')), if_neg h, lit_newline]

/-- Printing on bytes and printing on characters agree. -/
theorem C71_write (p : TVPair) : emitFieldB (pairBytes p) = utf8 (Item.text p.tag p.value).emit := by
  have : textifyB (utf8 p.value) = utf8 (textify p.value) := by
    unfold textifyB textify
    rw [containsB_utf8]
    split
    · rw [utf8_append, utf8_append]
    · rfl
  unfold emitFieldB pairBytes Item.emit
  rw [this, utf8_append, utf8_append, utf8_append]

/-- Fields of any bytes, printed by the writer and read again, are unchanged. -/
theorem C71_round_trip (ps : List BPair) (h : ∀ p ∈ ps, GoodTagB p.tag ∧ GoodValueB p.value)
    (hl : LinesFitB (ps.flatMap emitFieldB)) : readTagValuesB (ps.flatMap emitFieldB) = .ok ps := by
  have e : ps.flatMap emitFieldB = ps.flatMap fieldBytes := by
    congr 1; funext p; exact C71_field_written p
  rw [e] at hl ⊢
  unfold readTagValuesB
  rw [scanLinesB_ok hl, Res.bind_ok, readLinesB_fields ps h {} rfl rfl rfl, Res.bind_ok]
  rfl

/-! ## The string functions

The functions of `strings` used by the reader, the parser and the writer, on bytes and on characters. -/

/-- Different texts have different bytes, and the number of bytes is as counted by `byteLen`. -/
theorem C71_encoding : (∀ a b, utf8 a = utf8 b → a = b) ∧ (∀ a b, utf8 (a ++ b) = utf8 a ++ utf8 b) ∧
    ∀ s, (utf8 s).length = byteLen s :=
  ⟨fun _ _ => utf8_inj, utf8_append, utf8_length⟩

/-- Searching and cutting: an occurrence of the bytes of a text in the bytes of another is an occurrence of the text. -/
theorem C71_search (w s : Str) :
    hasPrefixB (utf8 w) (utf8 s) = hasPrefix w s ∧ hasSuffixB (utf8 w) (utf8 s) = hasSuffix w s ∧
    containsB (utf8 w) (utf8 s) = contains w s ∧
    cutPrefixB (utf8 w) (utf8 s) = (cutPrefix w s).map utf8 ∧
    cutB (utf8 w) (utf8 s) = (cut w s).map (fun (a, b) => (utf8 a, utf8 b)) :=
  ⟨hasPrefixB_utf8 w s, hasSuffixB_utf8 w s, containsB_utf8 w s, cutPrefixB_utf8 w s, cutB_utf8 w s⟩

/-- Trimming white space of any script. -/
theorem C71_trim (s : Str) : trimSpaceB (utf8 s) = utf8 (trimSpace s) := trimSpaceB_utf8 s

/-- Splitting at an ASCII character, and splitting into lines. -/
theorem C71_split (s : Str) :
    (∀ (sep : Char) (b : UInt8), sep.toNat = b.toNat → b.toNat < 0x80 → splitByte b (utf8 s) = (splitChar sep s).map utf8) ∧
    scanLinesB (utf8 s) = (scanLines s >>= fun ls => .ok (ls.map utf8)) :=
  ⟨fun _ _ h hb => splitByte_utf8 h hb s, scanLinesB_utf8 s⟩

/-- Strings are sorted by their bytes; that is the order of their characters. -/
theorem C71_order (a b : Str) : bytesLe (utf8 a) (utf8 b) = strLe a b := bytesLe_utf8 a b

/-- Decoding from the front is exact, for any bytes: a character is found if and only if its bytes stand there;
otherwise one byte is passed over. -/
theorem C71_decode_first (s : Bytes) (h : s ≠ []) :
    (decodeRune s = (0xFFFD, 1) ∧ ∀ c x, s ≠ bytesOf c ++ x) ∨
    ∃ c x, s = bytesOf c ++ x ∧ decodeRune s = (c.toNat, (bytesOf c).length) :=
  decodeRune_cases h

/-- Decoding from the end is exact, for any bytes. -/
theorem C71_decode_last (s : Bytes) (h : s ≠ []) :
    (decodeLastRune s = (0xFFFD, 1) ∧ ∀ c x, s ≠ x ++ bytesOf c) ∨
    ∃ c x, s = x ++ bytesOf c ∧ decodeLastRune s = (c.toNat, (bytesOf c).length) :=
  decodeLastRune_cases h

/-! ## Samples -/

/-- Characters of one, two, three and four bytes. -/
example : utf8 g!"aé€😀" = [0x61, 0xC3, 0xA9, 0xE2, 0x82, 0xAC, 0xF0, 0x9F, 0x98, 0x80] := by decide

/-- A text in several scripts, with an ideographic space around the value. -/
theorem C71_read_sample :
    readTagValuesB (utf8 g!"Création: 　名前 😀　\nText: <text>один\nдва</text>\n") =
      .ok [⟨utf8 g!"Création", utf8 g!"名前 😀"⟩, ⟨utf8 g!"Text", utf8 g!"один\nдва"⟩] := by decide +kernel

/-- Latin-1 and other bytes that are not UTF-8 are kept as they are. -/
theorem C71_latin1_sample :
    readTagValuesB (utf8 g!"Name: Andr" ++ [0xE9] ++ utf8 g!"\nX: " ++ [0xFF, 0x80, 0x85] ++ utf8 g!"\n") =
      .ok [⟨utf8 g!"Name", utf8 g!"Andr" ++ [0xE9]⟩, ⟨utf8 g!"X", [0xFF, 0x80, 0x85]⟩] := by decide +kernel

/-- Bytes that are no text meet the conditions of the round trip. -/
theorem C71_round_trip_sample :
    let ps : List BPair := [⟨utf8 g!"Name", [0xE9, 0x85]⟩, ⟨[0xFF], [0x0A, 0x80, 0x20]⟩]
    (∀ p ∈ ps, GoodTagB p.tag ∧ GoodValueB p.value) ∧ ¬ IsText [0xE9, 0x85] ∧
    readTagValuesB (ps.flatMap emitFieldB) = .ok ps := by
  have nf : ∀ s : Bytes, isSpaceRune (decodeRune s).1 = false → NoSpaceFirst s := by
    rintro s h c x hc rfl
    rw [decodeRune_bytesOf] at h
    rw [show isSpace c = isSpaceRune c.toNat from rfl, h] at hc
    cases hc
  have nl : ∀ s : Bytes, isSpaceRune (decodeLastRune s).1 = false → NoSpaceLast s := by
    rintro s h c x hc rfl
    rw [decodeLastRune_bytesOf] at h
    rw [show isSpace c = isSpaceRune c.toNat from rfl, h] at hc
    cases hc
  have wo : ∀ (w : Str) (s : Bytes), (∃ b ∈ utf8 w, b ∉ s) → WithoutB w s := by
    rintro w s ⟨b, hb, hs⟩ x y rfl
    exact hs (by simp [hb])
  refine ⟨?_, ?_, by decide +kernel⟩
  · intro p hp
    rcases List.mem_cons.1 hp with rfl | hp
    · exact ⟨⟨by decide, by decide, by intro r h; simp [utf8, bytesOf] at h, nf _ (by decide), nl _ (by decide)⟩,
        .inr ⟨by decide, nf _ (by decide), nl _ (by decide), wo _ _ ⟨60, by decide, by decide⟩⟩⟩
    · rw [List.mem_singleton.1 hp]
      exact ⟨⟨by decide, by decide, by intro r h; simp at h, nf _ (by decide), nl _ (by decide)⟩,
        .inl ⟨by decide, wo _ _ ⟨60, by decide, by decide⟩, wo _ _ ⟨13, by decide, by decide⟩⟩⟩
  · rintro ⟨s, hs⟩
    cases s with
    | nil => cases hs
    | cons c s =>
      have := decodeRune_bytesOf c (utf8 s)
      rw [← utf8_cons, ← hs] at this
      have h1 : decodeRune [0xE9, 0x85] = (0xFFFD, 1) := by decide
      rw [h1] at this
      obtain ⟨h2, h3⟩ := Prod.mk.inj this
      rcases bytesOf_cases c with ⟨h, -⟩ | ⟨-, h, -⟩ | ⟨-, -, b0, b1, b2, e, -⟩ | ⟨h, -⟩
      · omega
      · omega
      · rw [e] at h3; cases h3
      · omega

/-- The condition on white space is needed for white space of any script: a value that ends in a no-break space (the
bytes C2 A0) loses it, and a value that ends in the byte A0 alone does not. -/
theorem C71_no_break_space_false :
    ¬ (∀ p : BPair, GoodTagB p.tag → 10 ∉ p.value → 32 ∉ p.value → readTagValuesB (emitFieldB p) = .ok [p]) ∧
    readTagValuesB (emitFieldB ⟨utf8 g!"A", [0x62, 0xA0]⟩) = .ok [⟨utf8 g!"A", [0x62, 0xA0]⟩] := by
  refine ⟨?_, by decide +kernel⟩
  intro h
  have h1 := h ⟨utf8 g!"A", [0x62, 0xC2, 0xA0]⟩ ⟨by decide, by decide, by intro r h; simp [utf8, bytesOf] at h, ?_, ?_⟩
    (by decide) (by decide)
  · have h2 : readTagValuesB (emitFieldB ⟨utf8 g!"A", [0x62, 0xC2, 0xA0]⟩) = .ok [⟨utf8 g!"A", [0x62]⟩] := by
      decide +kernel
    rw [h1] at h2
    revert h2
    decide
  · rintro c x hc e
    have := decodeRune_bytesOf c x
    rw [← e] at this
    have h1 : decodeRune (utf8 g!"A") = (65, 1) := by decide
    rw [h1] at this
    have : c.toNat = 65 := (Prod.mk.inj this).1.symm
    rw [show isSpace c = isSpaceRune c.toNat from rfl, this] at hc
    cases hc
  · rintro c x hc e
    have := decodeLastRune_bytesOf c x
    rw [← e] at this
    have h1 : decodeLastRune (utf8 g!"A") = (65, 1) := by decide
    rw [h1] at this
    have : c.toNat = 65 := (Prod.mk.inj this).1.symm
    rw [show isSpace c = isSpaceRune c.toNat from rfl, this] at hc
    cases hc

end Verif
