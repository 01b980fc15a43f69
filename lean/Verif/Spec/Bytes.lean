import Verif.Model.Bytes

/-!
# Specification: tag-value fields of any bytes

The line format of `Spec/TVFormat`, for fields whose tags and values are any bytes: text in UTF-8, text in another
encoding, or no text at all.  Bytes are written as numbers: 10 is the line break, 13 the carriage return, 35 `#`, 58 `:`.
-/

namespace Verif.Spec

/-- The bytes do not begin with a white space character. -/
def NoSpaceFirst (s : Bytes) : Prop := ∀ c x, isSpace c = true → s ≠ bytesOf c ++ x

/-- The bytes do not end with a white space character. -/
def NoSpaceLast (s : Bytes) : Prop := ∀ c x, isSpace c = true → s ≠ x ++ bytesOf c

/-- `w` does not occur in `s`. -/
def WithoutB (w : Str) (s : Bytes) : Prop := ∀ a b, s ≠ a ++ utf8 w ++ b

/-- A tag that can stand before a colon. -/
structure GoodTagB (t : Bytes) : Prop where
  noColon : 58 ∉ t
  oneLine : 10 ∉ t
  notComment : ∀ r, t ≠ 35 :: r
  first : NoSpaceFirst t
  last : NoSpaceLast t

/-- A value that can stand after a colon. A one-line value has no surrounding white space and no `<text>`; a multi-line
value has no `</text>` and no carriage return before a line break. -/
def GoodValueB (v : Bytes) : Prop :=
  (10 ∈ v ∧ WithoutB g!"</text>" v ∧ WithoutB g!"\r\n" v) ∨
  (10 ∉ v ∧ NoSpaceFirst v ∧ NoSpaceLast v ∧ WithoutB g!"<text>" v)

/-- How one field is written: `tag: value`, or `tag: <text>value</text>` if the value has a line break. -/
def fieldBytes (p : BPair) : Bytes :=
  p.tag ++ utf8 g!": " ++ (if 10 ∈ p.value then utf8 g!"<text>" ++ p.value ++ utf8 g!"</text>" else p.value) ++ [10]

/-- Every piece between line breaks is shorter than 64 KiB (the limit of Go's line scanner). -/
def LinesFitB (text : Bytes) : Prop := ∀ a l b, text = a ++ l ++ b → 10 ∉ l → l.length < 65536

/-- The bytes of a pair of texts. -/
def pairBytes (p : TVPair) : BPair := ⟨utf8 p.tag, utf8 p.value⟩

/-- The bytes are text in UTF-8. -/
def IsText (b : Bytes) : Prop := ∃ s, b = utf8 s

/-- `v` is made of bytes of the text: every piece of `v` within a line is a piece of the text. -/
def MadeOf (text v : Bytes) : Prop :=
  ∀ a l b, v = a ++ l ++ b → (10 : UInt8) ∉ l → ∃ a' b', text = a' ++ l ++ b'

end Verif.Spec
