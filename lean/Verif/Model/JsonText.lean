import Verif.Model.JsonDoc

/-!
# JSON text

Trusted reading of the Go package `encoding/json` (not part of `/repo`): how it scans text into values and prints
values as text, as called from json/reader.go:41 and json/writer.go:27-33.  Go scans with a state machine over bytes
and a stack; the model descends recursively.
-/

namespace Verif

/-- White space between tokens (`isSpace` of encoding/json/scanner.go). -/
def isJsonSpace (c : Char) : Bool := c = ' ' || c = '\t' || c = '\r' || c = '\n'

/-- The text from its next token on. -/
def skipJsonSpace (s : Str) : Str := s.dropWhile isJsonSpace

/-- A hexadecimal digit. -/
def isHexDigit (c : Char) : Bool := (hexVal c).isSome

/-- A decimal digit. -/
def isDigit (c : Char) : Bool := '0'.toNat ≤ c.toNat && c.toNat ≤ '9'.toNat

/-- The rest of a string after its opening quote, up to the closing one, and the text after it (`stateInString` to
`stateInStringEscU123` of encoding/json/scanner.go). -/
def scanString : Str → Option (Str × Str)
  | [] => none
  | '"' :: t => some ([], t)
  | '\\' :: 'u' :: a :: b :: c :: d :: t =>
    if isHexDigit a && isHexDigit b && isHexDigit c && isHexDigit d then
      (scanString t).map fun r => ('\\' :: 'u' :: a :: b :: c :: d :: r.1, r.2)
    else none
  | '\\' :: e :: t =>
    if e = '"' ∨ e = '\\' ∨ e = '/' ∨ e = 'b' ∨ e = 'f' ∨ e = 'n' ∨ e = 'r' ∨ e = 't' then
      (scanString t).map fun r => ('\\' :: e :: r.1, r.2)
    else none
  | c :: t => if c.toNat < 0x20 ∨ c = '\\' then none else (scanString t).map fun r => (c :: r.1, r.2)

/-- The digits a text begins with, and the rest. -/
def scanDigits (s : Str) : Str × Str := (s.takeWhile isDigit, s.dropWhile isDigit)

/-- At least one digit. -/
def scanDigits1 (s : Str) : Option (Str × Str) := if (scanDigits s).1 = [] then none else some (scanDigits s)

/-- The sign of a number. -/
def scanSign : Str → Str × Str
  | '-' :: t => (['-'], t)
  | s => ([], s)

/-- The digits before the point (`stateNeg`, `state0`, `state1`): a zero, or digits that begin with another. -/
def scanInt : Str → Option (Str × Str)
  | '0' :: t => some (['0'], t)
  | s => scanDigits1 s

/-- The point and the digits after it (`stateDot`, `stateDot0`). -/
def scanFraction : Str → Option (Str × Str)
  | '.' :: t => (scanDigits1 t).map fun r => ('.' :: r.1, r.2)
  | s => some ([], s)

/-- The sign of an exponent. -/
def scanExpSign : Str → Str × Str
  | '+' :: t => (['+'], t)
  | '-' :: t => (['-'], t)
  | s => ([], s)

/-- The exponent (`stateE`, `stateESign`, `stateE0`). -/
def scanExponent : Str → Option (Str × Str)
  | c :: t =>
    if c = 'e' ∨ c = 'E' then
      (scanDigits1 (scanExpSign t).2).map fun r => (c :: (scanExpSign t).1 ++ r.1, r.2)
    else some ([], c :: t)
  | [] => some ([], [])

/-- A number. -/
def scanNumber (s : Str) : Option (Str × Str) :=
  match scanInt (scanSign s).2 with
  | none => none
  | some (int, s1) => match scanFraction s1 with
    | none => none
    | some (frac, s2) => match scanExponent s2 with
      | none => none
      | some (exp, s3) => some ((scanSign s).1 ++ int ++ frac ++ exp, s3)

/-- A value that is no string, array or object (`stateBeginValue` and the literals). -/
def scanLiteral (s : Str) : Option (Json × Str) :=
  match cutPrefix g!"null" s with
  | some t => some (.null, t)
  | none => match cutPrefix g!"true" s with
    | some t => some (.bool true, t)
    | none => match cutPrefix g!"false" s with
      | some t => some (.bool false, t)
      | none => (scanNumber s).map fun r => (.num r.1, r.2)

mutual
/-- A value (`stateBeginValue`) with the text after it, with at most `depth` levels of arrays and objects.  `fuel` is
a bound on the number of calls. -/
def scanValue : (fuel depth : Nat) → Str → Option (Json × Str)
  | 0, _, _ => none
  | n + 1, depth, s => match skipJsonSpace s with
    | '"' :: t => (scanString t).map fun r => (.str r.1, r.2)
    | '[' :: t => match depth with
      | 0 => none
      | depth + 1 => match skipJsonSpace t with
        | ']' :: t => some (.arr [], t)
        | t => (scanElements n depth t).map fun r => (.arr r.1, r.2)
    | '{' :: t => match depth with
      | 0 => none
      | depth + 1 => match skipJsonSpace t with
        | '}' :: t => some (.obj [], t)
        | t => (scanMembers n depth t).map fun r => (.obj r.1, r.2)
    | t => scanLiteral t
/-- The values of an array, up to its closing bracket (`stateEndValue` in an array). -/
def scanElements : (fuel depth : Nat) → Str → Option (List Json × Str)
  | 0, _, _ => none
  | n + 1, depth, s => match scanValue n depth s with
    | none => none
    | some (j, t) => match skipJsonSpace t with
      | ',' :: t => (scanElements n depth t).map fun r => (j :: r.1, r.2)
      | ']' :: t => some ([j], t)
      | _ => none
/-- The members of an object, up to its closing brace (`stateBeginString`, `stateEndValue` in an object). -/
def scanMembers : (fuel depth : Nat) → Str → Option (List (Str × Json) × Str)
  | 0, _, _ => none
  | n + 1, depth, s => match skipJsonSpace s with
    | '"' :: t => match scanString t with
      | none => none
      | some (raw, t) => match unescape raw, skipJsonSpace t with
        | some key, ':' :: t => match scanValue n depth t with
          | none => none
          | some (j, t) => match skipJsonSpace t with
            | ',' :: t => (scanMembers n depth t).map fun r => ((key, j) :: r.1, r.2)
            | '}' :: t => some ([(key, j)], t)
            | _ => none
        | _, _ => none
    | _ => none
end

/-- `maxNestingDepth` of encoding/json/scanner.go. -/
def maxNestingDepth : Nat := 10000

/-- The value of a whole text (`checkValid` of encoding/json/scanner.go). -/
def scanJson (s : Str) : Option Json :=
  match scanValue (2 * s.length + 1) maxNestingDepth s with
  | none => none
  | some (j, t) => if skipJsonSpace t = [] then some j else none

mutual
/-- All number literals of a value can be decoded into a `float64`, which is what decoding into an empty interface
does (`convertNumber` of encoding/json/decode.go).  Which ones can is the parameter `float`. -/
def Json.floats (float : Str → Bool) : Json → Bool
  | .num l => float l
  | .arr l => Json.floatsList float l
  | .obj l => Json.floatsFields float l
  | _ => true
/-- The same for the values of a list. -/
def Json.floatsList (float : Str → Bool) : List Json → Bool
  | [] => true
  | j :: l => Json.floats float j && Json.floatsList float l
/-- The same for the entries of an object. -/
def Json.floatsFields (float : Str → Bool) : List (Str × Json) → Bool
  | [] => true
  | (_, j) :: l => Json.floats float j && Json.floatsFields float l
end

/-- An array or an object. -/
def Json.isCompound : Json → Bool
  | .arr _ | .obj _ => true
  | _ => false

/-- Some elements of an array are arrays or objects. -/
def Json.hasCompound : Json → Bool
  | .arr l => l.any (·.isCompound)
  | _ => false

/-- The value of a key is not an array or object although an agent is expected. -/
def agentPlain (key : Str) (j : Json) : Bool :=
  if sameKey g!"creators" key then !j.hasCompound
  else if sameKey g!"annotator" key || sameKey g!"supplier" key || sameKey g!"originator" key then !j.isCompound
  else true

mutual
/-- No array or object stands where an agent (creator, annotator, supplier, originator) is expected. -/
def Json.agentsPlain : Json → Bool
  | .arr l => Json.agentsPlainList l
  | .obj l => Json.agentsPlainFields l
  | _ => true
/-- The same for the values of a list. -/
def Json.agentsPlainList : List Json → Bool
  | [] => true
  | j :: l => Json.agentsPlain j && Json.agentsPlainList l
/-- The same for the entries of an object. -/
def Json.agentsPlainFields : List (Str × Json) → Bool
  | [] => true
  | (k, j) :: l => agentPlain k j && Json.agentsPlain j && Json.agentsPlainFields l
end

/-- `ReadInto` (json/reader.go:29-83) on a text, into a variable of version `target`.  What becomes of texts with an
array or object in place of an agent, the text of which the library takes apart with all its white space, is left
open: `odd`; Model/OddAgents.lean has it. -/
def readJsonText (so : Sorter) (copy : Version → Version → Doc → Doc) (float : Str → Bool) (odd : Str → Res Doc) (isPtr : Bool)
    (target : Version) (s : Str) : Res Doc :=
  if !isPtr then .err
  else match scanJson s with
    | none => .err
    | some j =>
      if !j.floats float then .err
      else if j.agentsPlain then readJsonInto so copy isPtr target j else odd s

/-- A line break and indentation (`appendNewline` of encoding/json/indent.go). -/
def newline (indent : Str) (depth : Nat) : Str := '\n' :: (List.replicate depth indent).flatten

mutual
/-- A value over several lines (`appendIndent` of encoding/json/indent.go, with an empty prefix). -/
def Json.indented (indent : Str) : (depth : Nat) → Json → Str
  | depth, .arr (j :: l) => g!"[" ++ newline indent (depth + 1) ++ Json.indentedList indent (depth + 1) (j :: l) ++ newline indent depth ++ g!"]"
  | depth, .obj (e :: l) => g!"{" ++ newline indent (depth + 1) ++ Json.indentedFields indent (depth + 1) (e :: l) ++ newline indent depth ++ g!"}"
  | _, j => j.text
/-- Values, one per line. -/
def Json.indentedList (indent : Str) : (depth : Nat) → List Json → Str
  | _, [] => []
  | depth, [j] => Json.indented indent depth j
  | depth, j :: l => Json.indented indent depth j ++ g!"," ++ newline indent depth ++ Json.indentedList indent depth l
/-- Entries, one per line. -/
def Json.indentedFields (indent : Str) : (depth : Nat) → List (Str × Json) → Str
  | _, [] => []
  | depth, [(k, j)] => jsonQuote k ++ g!": " ++ Json.indented indent depth j
  | depth, (k, j) :: l =>
    jsonQuote k ++ g!": " ++ Json.indented indent depth j ++ g!"," ++ newline indent depth ++ Json.indentedFields indent depth l
end

/-- `Write` (json/writer.go:27-33) with the options `Indent` and `EscapeHTML` (json/writer.go:14-24): the text of the
document and a line break (`Encoder.Encode` of encoding/json/stream.go). -/
def writeJsonText (so : Sorter) (v : Version) (html : Bool) (indent : Str) (d : Doc) : Res Str := do
  let j ← writeJson so v html d
  .ok ((if indent = [] then j.text else j.indented indent 0) ++ g!"\n")

end Verif
