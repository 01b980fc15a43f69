import Verif.Lemmas.TVRead

/-!
# C01–C03: the tag-value line reader
-/

namespace Verif
open Spec

/-- **C01.** Fields written one per line are read back exactly: same pairs, same order, no error. -/
theorem C01_fields_round_trip (ps : List TVPair)
    (good : ∀ p ∈ ps, GoodTag p.tag ∧ GoodValue p.value)
    (fit : LinesFit (ps.flatMap fieldText)) :
    readTagValues (ps.flatMap fieldText) = .ok ps := by
  unfold readTagValues
  rw [scanLines_ok fit]
  simp only [Res.bind_ok, readTagValueLines]
  rw [readLines_fields ps good {} rfl rfl rfl]
  simp [TVReader.finalize]

/-- A document with a one-line and a three-line value meets the hypotheses of C01. -/
def C01_sample : List TVPair :=
  [⟨g!"PackageName", g!"a : b"⟩, ⟨g!"PackageComment", g!"x <text> \n\n y"⟩, ⟨g!"FileName", g!""⟩]

example : (∀ p ∈ C01_sample, GoodTag p.tag ∧ GoodValue p.value) ∧
    LinesFit (C01_sample.flatMap fieldText) := by
  refine ⟨?_, ?_⟩
  · intro p hp
    simp only [C01_sample, List.mem_cons, List.not_mem_nil, or_false] at hp
    rcases hp with rfl | rfl | rfl <;>
      exact ⟨⟨by decide, by decide, by simp, by decide⟩, by decide⟩
  · decide

/-- **C02.** A blank or comment line inserted anywhere outside a `<text>` block changes nothing. -/
theorem C02_blank_and_comment_lines (pre post : List Str) (l : Str)
    (h : isBlank l = true ∨ isComment l = true) (hout : inText pre = false) :
    readTagValueLines (pre ++ l :: post) = readTagValueLines (pre ++ post) := by
  unfold readTagValueLines
  rw [readLines_append, readLines_append]
  cases hr : readLines {} pre with
  | err => rfl
  | panic => rfl
  | ok r =>
    have hm := readLines_midtext {} r pre hr
    simp only [Res.bind_ok, readLines]
    have : r.midtext = false := by rw [hm]; exact hout
    rw [readLine_skip r l this h]

/-- **C02.** Indenting a line outside a `<text>` block changes nothing. -/
theorem C02_indentation (pre post : List Str) (ws l : Str)
    (h : ∀ c ∈ ws, isSpace c = true) (hout : inText pre = false) :
    readTagValueLines (pre ++ (ws ++ l) :: post) = readTagValueLines (pre ++ l :: post) := by
  unfold readTagValueLines
  rw [readLines_append, readLines_append]
  cases hr : readLines {} pre with
  | err => rfl
  | panic => rfl
  | ok r =>
    have hm := readLines_midtext {} r pre hr
    have hm' : r.midtext = false := by rw [hm]; exact hout
    simp only [Res.bind_ok, readLines]
    have : readLine r (ws ++ l) = readLine r l := by
      unfold readLine
      simp only [hm', Bool.false_eq_true, if_false]
      unfold readLineReady
      have : trimLeft isSpace (ws ++ l) = trimLeft isSpace l := by
        induction ws with
        | nil => rfl
        | cons c ws ih =>
          simp only [List.cons_append]
          rw [← ih (fun c hc => h c (by simp [hc]))]
          simp [trimLeft, h c (by simp)]
      rw [this]
    rw [this]

example : isComment g!"  # x: <text>" = true ∧ isBlank g!" \t" = true ∧
    inText [g!"A: <text>b", g!"c</text>", g!"D: e"] = false := by decide

/-- **C03.** On a list of lines, reading fails exactly if some line outside a `<text>` block is
malformed or a block is still open at the end. -/
theorem C03_line_errors (ls : List Str) :
    readTagValueLines ls = .err ↔
      (∃ pre l post, ls = pre ++ l :: post ∧ inText pre = false ∧ Malformed l) ∨ inText ls = true := by
  unfold readTagValueLines
  cases hr : readLines {} ls with
  | panic => exact absurd hr (readLines_ne_panic _ _)
  | err =>
    have := (readLines_err_iff {} ls).1 hr
    simp only [Res.bind_err, true_iff]
    exact Or.inl this
  | ok r =>
    have hne : ¬ ∃ pre l post, ls = pre ++ l :: post ∧ inText pre = false ∧ Malformed l := by
      intro h
      have := (readLines_err_iff {} ls).2 h
      rw [hr] at this; simp at this
    have hm := readLines_midtext {} r ls hr
    have hm' : r.midtext = inText ls := hm
    simp only [Res.bind_ok, TVReader.finalize, hne, false_or, ← hm']
    cases r.midtext <;> simp

/-- The lines of a text, with one trailing carriage return removed from each. -/
def textLines (text : Str) : List Str := (rawLines text).map dropCR

/-- **C03.** On a text, reading fails exactly if a line reaches 64 KiB, or some line outside a
`<text>` block is malformed, or a block is still open at the end; and it never panics. -/
theorem C03_text_errors (text : Str) :
    (readTagValues text = .err ↔
      (∃ l ∈ rawLines text, 65536 ≤ byteLen l) ∨
      (∃ pre l post, textLines text = pre ++ l :: post ∧ inText pre = false ∧ Malformed l) ∨
      inText (textLines text) = true) ∧
    readTagValues text ≠ .panic := by
  unfold readTagValues scanLines
  simp only
  split
  · rename_i h
    rw [List.all_eq_true] at h
    have hno : ¬ ∃ l ∈ rawLines text, 65536 ≤ byteLen l := by
      rintro ⟨l, hl, hb⟩
      have := of_decide_eq_true (h l hl)
      unfold maxScanToken at this
      omega
    simp only [Res.bind_ok, hno, false_or]
    refine ⟨C03_line_errors _, ?_⟩
    unfold readTagValueLines
    cases hr : readLines {} ((rawLines text).map dropCR) with
    | panic => exact absurd hr (readLines_ne_panic _ _)
    | err => simp
    | ok r => simp only [Res.bind_ok, TVReader.finalize]; split <;> simp
  · rename_i h
    rw [Bool.not_eq_true, List.all_eq_false] at h
    simp only [Res.bind_err, true_iff, ne_eq, reduceCtorEq, not_false_eq_true, and_true]
    left
    obtain ⟨l, hl, hb⟩ := h
    refine ⟨l, hl, ?_⟩
    have : ¬ byteLen l < maxScanToken := fun h' => hb (decide_eq_true h')
    unfold maxScanToken at this
    omega

example : readTagValues g!"A: <text>b\nc" = .err ∧ readTagValues g!"A: b\nnonsense\n" = .err ∧
    readTagValues g!"A: <text>no colon\n fine </text>\n# c\n" =
      .ok [⟨g!"A", g!"no colon\n fine "⟩] := by decide

end Verif
