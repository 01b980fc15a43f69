import Verif.Spec.TVFormat
import Verif.Spec.Sections

/-!
# Specification: the pairs a tag-value text consists of

A text is a sequence of blank lines, comments, fields of one line, and fields with a `<text>` block over several
lines.
-/

namespace Verif.Spec

/-- `line` is `tag: rest`, up to spaces around the tag; it is divided at the first colon and is no comment. -/
def FieldLine (line tag rest : Str) : Prop :=
  isComment line = false ∧ ∃ t, line = t ++ g!":" ++ rest ∧ ':' ∉ t ∧ tag = trimSpace t

/-- `rest` is `before<text>body`, divided at the first `<text>`. -/
def TextOpened (rest body : Str) : Prop := ∃ before, rest = before ++ g!"<text>" ++ body ∧ Without g!"<text>" before

/-- `line` is `inner</text>after`, divided at the first `</text>`. -/
def TextClosed (line inner : Str) : Prop := Without g!"</text>" inner ∧ ∃ after, line = inner ++ g!"</text>" ++ after

/-- The lines consist of the pairs. -/
inductive LinesSay : List Str → List TVPair → Prop
  | done : LinesSay [] []
  /-- A blank line or a comment says nothing. -/
  | skip {l : Str} {ls : List Str} {ps : List TVPair} (h : isBlank l = true ∨ isComment l = true) (hs : LinesSay ls ps) :
      LinesSay (l :: ls) ps
  /-- `tag: value` -/
  | plain {l tag rest : Str} {ls : List Str} {ps : List TVPair} (h : FieldLine l tag rest) (hr : Without g!"<text>" rest)
      (hs : LinesSay ls ps) : LinesSay (l :: ls) (⟨tag, trimSpace rest⟩ :: ps)
  /-- `tag: <text>value</text>` -/
  | quoted {l tag rest body value : Str} {ls : List Str} {ps : List TVPair} (h : FieldLine l tag rest) (hr : TextOpened rest body)
      (hb : TextClosed body value) (hs : LinesSay ls ps) : LinesSay (l :: ls) (⟨tag, value⟩ :: ps)
  /-- `tag: <text>first`, further lines, `last</text>`; the value has a line break after each line but the last. -/
  | block {l tag rest first last inner : Str} {middle ls : List Str} {ps : List TVPair} (h : FieldLine l tag rest)
      (hr : TextOpened rest first) (hf : Without g!"</text>" first) (hm : ∀ m ∈ middle, Without g!"</text>" m)
      (hl : TextClosed last inner) (hs : LinesSay ls ps) :
      LinesSay (l :: (middle ++ last :: ls)) (⟨tag, join g!"\n" (first :: (middle ++ [inner]))⟩ :: ps)

/-- The line that ends with a line break; a carriage return before the break belongs to it. -/
def LineText (raw line : Str) : Prop := raw = line ++ g!"\r" ∨ (raw = line ∧ ∀ t, line ≠ t ++ g!"\r")

/-- `ls` are the lines of the text; the last one need not end with a line break, and no line is longer than the line
reader allows. -/
def TextLines (text : Str) (ls : List Str) : Prop :=
  ∃ raw, (∀ l ∈ raw, '\n' ∉ l ∧ byteLen l < 65536) ∧ Pointwise LineText raw ls ∧
    (text = (raw.flatMap fun l => l ++ g!"\n") ∨
     ∃ front last, raw = front ++ [last] ∧ last ≠ [] ∧ text = (front.flatMap fun l => l ++ g!"\n") ++ last)

/-- The text consists of the pairs. -/
def PairsOf (text : Str) (ps : List TVPair) : Prop := ∃ ls, TextLines text ls ∧ LinesSay ls ps

end Verif.Spec
