import Verif.Model.TVRead

/-!
# Specification: the tag-value line format

What the format looks like on paper, independently of the reader's state machine.
-/

namespace Verif.Spec

/-- How one field is written: `tag: value`, or `tag: <text>value</text>` if the value has a line
break. -/
def fieldText (p : TVPair) : Str :=
  p.tag ++ g!": " ++ (if '\n' ∈ p.value then g!"<text>" ++ p.value ++ g!"</text>" else p.value) ++ g!"\n"

/-- A tag that can stand before a colon. -/
structure GoodTag (t : Str) : Prop where
  noColon : ':' ∉ t
  oneLine : '\n' ∉ t
  notComment : ∀ r, t ≠ '#' :: r
  noOuterSpace : trimSpace t = t

/-- A value that can stand after a colon. A one-line value has no surrounding white space and no
`<text>`; a multi-line value has no `</text>` and no carriage return before a line break. -/
def GoodValue (v : Str) : Prop :=
  if '\n' ∈ v then contains g!"</text>" v = false ∧ contains g!"\r\n" v = false
  else trimSpace v = v ∧ contains g!"<text>" v = false

instance (v : Str) : Decidable (GoodValue v) := by unfold GoodValue; infer_instance

/-- Every line is shorter than 64 KiB (the limit of Go's line scanner). -/
def LinesFit (text : Str) : Prop := ∀ l ∈ splitChar '\n' text, byteLen l < 65536

instance (t : Str) : Decidable (LinesFit t) := by unfold LinesFit; infer_instance

/-- A line of white space only. -/
def isBlank (l : Str) : Bool := l.all isSpace

/-- A line whose first character after white space is `#`. -/
def isComment (l : Str) : Bool := (l.dropWhile isSpace).head? = some '#'

/-- A tag line that opens a `<text>` block and does not close it (`cut` is "at the first
occurrence"). -/
def opensText (l : Str) : Bool :=
  !isBlank l && !isComment l &&
  match cut g!":" l with
  | none => false
  | some (_, v) => match cut g!"<text>" v with
    | none => false
    | some (_, body) => !contains g!"</text>" body

/-- Whether a `<text>` block is open after a line, given whether one was open before it. -/
def textStep (inside : Bool) (l : Str) : Bool :=
  if inside then !contains g!"</text>" l else opensText l

/-- Whether a `<text>` block is open after the given lines. -/
def inText (ls : List Str) : Bool := ls.foldl textStep false

/-- A line that is an error outside a `<text>` block: neither blank nor comment, and no colon. -/
def Malformed (l : Str) : Prop := isBlank l = false ∧ isComment l = false ∧ ':' ∉ l

end Verif.Spec
