import Verif.Model.Bytes
import Verif.Model.JsonText

/-!
# JSON on bytes

`Model/JsonText` takes a file to be text.  A file can hold any bytes, and `encoding/json` (trusted reading, not part of `/repo`,
as called from json/reader.go:41-77 and json/writer.go:27-33) works on bytes: its scanner looks at one byte at a time, and bytes
that are not UTF-8 are replaced when a string is unquoted.  This file has the reading of JSON on bytes, and the quoting of
strings on bytes.
-/

namespace Verif

/-- The characters of a Go string as Go sees them (`for range`, `utf8.DecodeRune`): U+FFFD for every byte that is part of none.
The first argument bounds the number of steps. -/
def repairLoop : Nat → Bytes → Str
  | 0, _ => []
  | n + 1, s =>
    if s = [] then []
    else Char.ofNat (decodeRune s).1 :: repairLoop n (s.drop (decodeRune s).2)

/-- The characters of a Go string. -/
def repair (s : Bytes) : Str := repairLoop s.length s

/-- The bytes, each seen as a character below U+0100: what a machine sees that looks at one byte at a time. -/
def latin (b : Bytes) : Str := b.map fun x => Char.ofNat x.toNat

/-- The bytes seen as such characters. -/
def unlatin (s : Str) : Bytes := s.map fun c => UInt8.ofNat c.toNat

/-- A JSON value.  `str` holds the bytes between the quotes (with escapes), `num` the literal; object keys are unquoted. -/
inductive BJson where
  | null
  | bool (b : Bool)
  | num (literal : Str)
  | str (raw : Bytes)
  | arr (l : List BJson)
  | obj (l : List (Bytes × BJson))

/-- `getu4` of encoding/json/decode.go: the number of an escape `\\uXXXX`, and what follows it. -/
def getu4 : Bytes → Option (Nat × Bytes)
  | e :: u :: a :: b :: c :: d :: t =>
    if e = 92 ∧ u = 117 then
      (hex4 (Char.ofNat a.toNat) (Char.ofNat b.toNat) (Char.ofNat c.toNat) (Char.ofNat d.toNat)).map fun n => (n, t)
    else none
  | _ => none

/-- The byte that an escape of one letter stands for (`unquoteBytes` of encoding/json/decode.go). -/
def shortEscape (e : UInt8) : Option UInt8 :=
  if e = 34 ∨ e = 92 ∨ e = 47 ∨ e = 39 then some e
  else if e = 98 then some 8
  else if e = 102 then some 12
  else if e = 110 then some 10
  else if e = 114 then some 13
  else if e = 116 then some 9
  else none

/-- The loop of `unquoteBytes` of encoding/json/decode.go.  The first argument bounds the number of steps. -/
def unquoteLoop : Nat → Bytes → Option Bytes
  | 0, _ => some []
  | _ + 1, [] => some []
  | n + 1, c :: t =>
    if c = 92 then
      match getu4 (c :: t) with
      | some (u, r) =>
        if 0xD800 ≤ u ∧ u < 0xE000 then
          match getu4 r with
          | some (u2, r2) =>
            if u < 0xDC00 ∧ 0xDC00 ≤ u2 ∧ u2 < 0xE000 then
              (unquoteLoop n r2).map (bytesOf (Char.ofNat (0x10000 + (u - 0xD800) * 0x400 + (u2 - 0xDC00))) ++ ·)
            else (unquoteLoop n r).map (bytesOf (Char.ofNat 0xFFFD) ++ ·)
          | none => (unquoteLoop n r).map (bytesOf (Char.ofNat 0xFFFD) ++ ·)
        else (unquoteLoop n r).map (bytesOf (Char.ofNat u) ++ ·)
      | none =>
        match t with
        | [] => none
        | e :: t =>
          match shortEscape e with
          | none => none
          | some x => (unquoteLoop n t).map (x :: ·)
    else if c = 34 ∨ c.toNat < 0x20 then none
    else (unquoteLoop n ((c :: t).drop (decodeRune (c :: t)).2)).map (bytesOf (Char.ofNat (decodeRune (c :: t)).1) ++ ·)

/-- `unquoteBytes` of encoding/json/decode.go: the string that the bytes between the quotes stand for. -/
def unquoteB (raw : Bytes) : Option Bytes := unquoteLoop raw.length raw

/-- The bytes from the next token on. -/
def skipSpaceB (b : Bytes) : Bytes := b.dropWhile fun x => isJsonSpace (Char.ofNat x.toNat)

/-- As `scanString`, byte by byte. -/
def scanStringB (b : Bytes) : Option (Bytes × Bytes) := (scanString (latin b)).map fun r => (unlatin r.1, unlatin r.2)

/-- A literal. -/
def BJson.ofLiteral : Json → BJson
  | .bool b => .bool b
  | .num l => .num l
  | _ => .null

/-- As `scanLiteral`, byte by byte. -/
def scanLiteralB (b : Bytes) : Option (BJson × Bytes) := (scanLiteral (latin b)).map fun r => (BJson.ofLiteral r.1, unlatin r.2)

mutual
/-- A value, as `scanValue`. -/
def scanValueB : (fuel depth : Nat) → Bytes → Option (BJson × Bytes)
  | 0, _, _ => none
  | n + 1, depth, s => match skipSpaceB s with
    | [] => none
    | c :: t =>
      if c = 34 then (scanStringB t).map fun r => (.str r.1, r.2)
      else if c = 91 then match depth with
        | 0 => none
        | depth + 1 => match skipSpaceB t with
          | [] => none
          | c :: u => if c = 93 then some (.arr [], u) else (scanElementsB n depth (c :: u)).map fun r => (.arr r.1, r.2)
      else if c = 123 then match depth with
        | 0 => none
        | depth + 1 => match skipSpaceB t with
          | [] => none
          | c :: u => if c = 125 then some (.obj [], u) else (scanMembersB n depth (c :: u)).map fun r => (.obj r.1, r.2)
      else scanLiteralB (c :: t)
/-- The values of an array, as `scanElements`. -/
def scanElementsB : (fuel depth : Nat) → Bytes → Option (List BJson × Bytes)
  | 0, _, _ => none
  | n + 1, depth, s => match scanValueB n depth s with
    | none => none
    | some (j, t) => match skipSpaceB t with
      | [] => none
      | c :: u =>
        if c = 44 then (scanElementsB n depth u).map fun r => (j :: r.1, r.2)
        else if c = 93 then some ([j], u)
        else none
/-- The members of an object, as `scanMembers`. -/
def scanMembersB : (fuel depth : Nat) → Bytes → Option (List (Bytes × BJson) × Bytes)
  | 0, _, _ => none
  | n + 1, depth, s => match skipSpaceB s with
    | [] => none
    | c :: t =>
      if c ≠ 34 then none
      else match scanStringB t with
        | none => none
        | some (raw, t) => match unquoteB raw, skipSpaceB t with
          | some key, c :: t =>
            if c ≠ 58 then none
            else match scanValueB n depth t with
              | none => none
              | some (j, t) => match skipSpaceB t with
                | [] => none
                | c :: u =>
                  if c = 44 then (scanMembersB n depth u).map fun r => ((key, j) :: r.1, r.2)
                  else if c = 125 then some ([(key, j)], u)
                  else none
          | _, _ => none
end

/-- The value of a whole file, as `scanJson`. -/
def scanJsonB (b : Bytes) : Option BJson :=
  match scanValueB (2 * b.length + 1) maxNestingDepth b with
  | none => none
  | some (j, t) => if skipSpaceB t = [] then some j else none

mutual
/-- The value with all its strings repaired. -/
def BJson.repaired : BJson → Json
  | .null => .null
  | .bool b => .bool b
  | .num l => .num l
  | .str raw => .str (repair raw)
  | .arr l => .arr (BJson.repairedList l)
  | .obj l => .obj (BJson.repairedFields l)
/-- The same for the values of a list. -/
def BJson.repairedList : List BJson → List Json
  | [] => []
  | j :: l => BJson.repaired j :: BJson.repairedList l
/-- The same for the entries of an object. -/
def BJson.repairedFields : List (Bytes × BJson) → List (Str × Json)
  | [] => []
  | (k, j) :: l => (repair k, BJson.repaired j) :: BJson.repairedFields l
end

/-- The bytes are UTF-8. -/
def isUtf8 (b : Bytes) : Bool := utf8 (repair b) = b

/-- The keys whose values are identifiers or agents, the types that look at the bytes of a string as they are:
`DocumentID`, `ElementID` and `DocElementID` (spdx/v2/common/identifier.go:30-31, 74-75, 144-145), `Creator`
(spdx/v2/common/creation_info.go:23-24), `Annotator` (spdx/v2/common/annotation.go:22-23), `Supplier` and `Originator`
(spdx/v2/common/package.go:23-24, 66-67). -/
def rawKeys : List Str :=
  [g!"creators", g!"externalDocumentId", g!"SPDXID", g!"documentDescribes", g!"spdxElementId", g!"relatedSpdxElement", g!"annotator",
   g!"snippetFromFile", g!"supplier", g!"originator", g!"hasFiles", g!"reference"]

mutual
/-- All strings of a value are UTF-8. -/
def BJson.allUtf8 : BJson → Bool
  | .str raw => isUtf8 raw
  | .arr l => BJson.allUtf8List l
  | .obj l => BJson.allUtf8Fields l
  | _ => true
/-- The same for the values of a list. -/
def BJson.allUtf8List : List BJson → Bool
  | [] => true
  | j :: l => BJson.allUtf8 j && BJson.allUtf8List l
/-- The same for the entries of an object. -/
def BJson.allUtf8Fields : List (Bytes × BJson) → Bool
  | [] => true
  | (_, j) :: l => BJson.allUtf8 j && BJson.allUtf8Fields l
end

mutual
/-- The identifiers and agents of a value are UTF-8. -/
def BJson.rawUtf8 : BJson → Bool
  | .arr l => BJson.rawUtf8List l
  | .obj l => BJson.rawUtf8Fields l
  | _ => true
/-- The same for the values of a list. -/
def BJson.rawUtf8List : List BJson → Bool
  | [] => true
  | j :: l => BJson.rawUtf8 j && BJson.rawUtf8List l
/-- The same for the entries of an object. -/
def BJson.rawUtf8Fields : List (Bytes × BJson) → Bool
  | [] => true
  | (k, j) :: l => (if rawKeys.any fun x => sameKey x (repair k) then BJson.allUtf8 j else BJson.rawUtf8 j) && BJson.rawUtf8Fields l
end

/-- The loop of `appendString` of encoding/json/encode.go, between the quotes.  The first argument bounds the number of
steps. -/
def quoteLoop (html : Bool) : Nat → Bytes → Bytes
  | 0, _ => []
  | n + 1, s =>
    if s = [] then []
    else
      let r := decodeRune s
      (if r = runeError then utf8 g!"\\ufffd"
       else utf8 ((jsonEscapeChar (Char.ofNat r.1)).flatMap fun c => if html then escapeHtmlChar c else [c])) ++
      quoteLoop html n (s.drop r.2)

/-- How `encoding/json` writes a Go string between the quotes. -/
def quoteB (html : Bool) (s : Bytes) : Bytes := quoteLoop html s.length s

/-- `strings.Trim(string(data), "\"")` on bytes. -/
def trimQuotesB (b : Bytes) : Bytes := ((b.dropWhile (· = 34)).reverse.dropWhile (· = 34)).reverse

/-- `ElementID.UnmarshalJSON` (spdx/v2/common/identifier.go:72-83) on bytes. -/
def elementIdOfJsonB (data : Bytes) : Res Bytes :=
  match cutPrefixB (utf8 spdxRefPrefix) (trimQuotesB data) with
  | some r => if r = [] then .err else .ok r
  | none => .err

/-- `ElementID.MarshalJSON` (spdx/v2/common/identifier.go:67-69) on bytes, between the quotes. -/
def elementIdToJsonB (id : Bytes) : Bytes :=
  quoteB false (if (cutPrefixB (utf8 spdxRefPrefix) id).isNone then utf8 spdxRefPrefix ++ id else id)

/-- `ReadInto` (json/reader.go:29-83) on a file of any bytes, into a variable of version `target`.  A string that is decoded into
a Go string is unquoted, and the bytes that are not UTF-8 in it are replaced (`C83_string`), so that decoding is
modelled on the repaired value.  What becomes of files with other bytes in identifiers and agents, which are kept, is left
open, as are the values that `readJsonText` leaves open: `odd`. -/
def readJsonBytes (so : Sorter) (copy : Version → Version → Doc → Doc) (float : Str → Bool) (odd : Bytes → Res Doc) (isPtr : Bool)
    (target : Version) (b : Bytes) : Res Doc :=
  if !isPtr then .err
  else match scanJsonB b with
    | none => .err
    | some j =>
      if !j.repaired.floats float then .err
      else if j.rawUtf8 && j.repaired.agentsPlain then readJsonInto so copy isPtr target j.repaired else odd b

end Verif
