import Verif.Model.GoStr

/-!
# Reading tag-value lines

`tagvalue/reader/reader.go`: from text to a list of (tag, value) pairs.
-/

namespace Verif

/-- `TagValuePair` (tagvalue/reader/reader.go:14-17). -/
structure TVPair where
  tag : Str
  value : Str
  deriving DecidableEq, Repr

/-- `tvReader` (tagvalue/reader/reader.go:57-63).  `currentLine` is never read and is left out. -/
structure TVReader where
  midtext : Bool := false
  tvList : List TVPair := []
  currentTag : Str := []
  currentValue : Str := []
  deriving DecidableEq, Repr

/-- tagvalue/reader/reader.go:109. -/
def textOpen : Str := g!"<text>"
/-- tagvalue/reader/reader.go:116, 143. -/
def textClose : Str := g!"</text>"

/-- `readNextLineFromReady` (tagvalue/reader/reader.go:82-139). -/
def readLineReady (r : TVReader) (line : Str) : Res TVReader :=
  let line2 := trimLeft isSpace line
  if line2 = [] then .ok r
  else if hasPrefix g!"#" line2 then .ok r
  else match cut g!":" line2 with
    | none => .err
    | some (t, rest) =>
      let tag := trimSpace t
      match cut textOpen rest with
      | none =>
        .ok { r with tvList := r.tvList ++ [⟨tag, trimSpace rest⟩], currentTag := [], currentValue := [] }
      | some (_, body) =>
        match cut textClose body with
        | some (inner, _) =>
          .ok { r with tvList := r.tvList ++ [⟨tag, inner⟩], currentTag := [], currentValue := [] }
        | none =>
          .ok { r with currentTag := tag, currentValue := body ++ g!"\n", midtext := true }

/-- `readNextLineFromMidtext` (tagvalue/reader/reader.go:141-161). -/
def readLineMidtext (r : TVReader) (line : Str) : Res TVReader :=
  match cut textClose line with
  | none => .ok { r with currentValue := r.currentValue ++ (line ++ g!"\n") }
  | some (inner, _) =>
    .ok { midtext := false, tvList := r.tvList ++ [⟨r.currentTag, r.currentValue ++ inner⟩],
          currentTag := [], currentValue := [] }

/-- `readNextLine` (tagvalue/reader/reader.go:72-80). -/
def readLine (r : TVReader) (line : Str) : Res TVReader :=
  if r.midtext then readLineMidtext r line else readLineReady r line

/-- The scanning loop (tagvalue/reader/reader.go:25-31). -/
def readLines : TVReader → List Str → Res TVReader
  | r, [] => .ok r
  | r, l :: ls => match readLine r l with
    | .ok r' => readLines r' ls
    | .err => .err
    | .panic => .panic

/-- `finalize` (tagvalue/reader/reader.go:65-70). -/
def TVReader.finalize (r : TVReader) : Res (List TVPair) :=
  if r.midtext then .err else .ok r.tvList

/-- `ReadTagValues` (tagvalue/reader/reader.go:21-50) on lines. -/
def readTagValueLines (lines : List Str) : Res (List TVPair) := do
  let r ← readLines {} lines
  r.finalize

/-- `ReadTagValues` (tagvalue/reader/reader.go:21-50). -/
def readTagValues (text : Str) : Res (List TVPair) := do
  let lines ← scanLines text
  readTagValueLines lines

end Verif
