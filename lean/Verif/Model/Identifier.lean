import Verif.Model.Types

/-!
# Identifiers

`spdx/v2/common/identifier.go` and the extractors of `spdx/v2/v2_x/tagvalue/reader/util.go`.
-/

namespace Verif

/-- spdx/v2/common/identifier.go:13. -/
def spdxRefPrefix : Str := g!"SPDXRef-"
/-- spdx/v2/common/identifier.go:14. -/
def documentRefPrefix : Str := g!"DocumentRef-"

/-- `RenderElementID` (spdx/v2/common/identifier.go:202-204). -/
def renderElementID (e : Str) : Str := spdxRefPrefix ++ e

/-- `RenderDocElementID` (spdx/v2/common/identifier.go:210-219). -/
def renderDocElementID (d : DocElementID) : Str :=
  if d.specialID ≠ [] then d.specialID
  else
    let pre := if d.documentRefID ≠ [] then documentRefPrefix ++ d.documentRefID ++ g!":" else []
    pre ++ spdxRefPrefix ++ d.elementRefID

/-- `extractElementID` (spdx/v2/v2_3/tagvalue/reader/util.go:96-115; identical in v2_2 and v2_1, and
as `ExtractElementID` in spdx/v2/v2_3/rdf/reader/utils.go:121-140). -/
def extractElementID (value : Str) : Res Str :=
  if !hasPrefix spdxRefPrefix value then .err
  else if contains g!":" value then .err
  else
    let e := trimPrefix spdxRefPrefix value
    if e = [] then .err else .ok e

/-- The part of `extractDocElementID` after the DocumentRef- case
(spdx/v2/v2_3/tagvalue/reader/util.go:54-73). -/
def extractDocElementTail (docRefID idStr : Str) : Res DocElementID :=
  if !hasPrefix spdxRefPrefix idStr then .err
  else if contains g!":" idStr then .err
  else
    let e := trimPrefix spdxRefPrefix idStr
    if e = [] then .err else .ok { documentRefID := docRefID, elementRefID := e }

/-- `extractDocElementID` (spdx/v2/v2_3/tagvalue/reader/util.go:29-74; identical in v2_2, v2_1 and as
`ExtractDocElementID` in spdx/v2/v2_3/rdf/reader/utils.go:71-116). -/
def extractDocElementID (value : Str) : Res DocElementID :=
  if hasPrefix documentRefPrefix value then
    match splitChar ':' value with
    | [a, b] =>
      let d := trimPrefix documentRefPrefix a
      if d = [] then .err else extractDocElementTail d b
    | _ => .err          -- fewer than 2 or more than 2 parts
  else extractDocElementTail [] value

/-- `extractDocElementSpecial` (spdx/v2/v2_3/tagvalue/reader/util.go:82-91; v2_2 same, absent in
v2_1). -/
def extractDocElementSpecial (value : Str) (permitted : List Str) : Res DocElementID :=
  if permitted.contains value then .ok { specialID := value } else extractDocElementID value

/-- `extractSubs` (spdx/v2/v2_3/tagvalue/reader/util.go:14-25; `ExtractSubs` of
spdx/v2/v2_3/rdf/reader/utils.go:144-155 with the separator as argument). -/
def extractSubs (sep value : Str) : Res (Str × Str) :=
  match cut sep value with
  | none => .err
  | some (a, b) => .ok (trimSpace a, trimSpace b)

/-- The quote character test used by `strings.Trim(s, "\"")`. -/
def isQuote (c : Char) : Bool := c = '"'

/-- The lower-case hexadecimal digit of a number below 16. -/
def hexDigit (n : Nat) : Char :=
  if n < 10 then Char.ofNat ('0'.toNat + n) else Char.ofNat ('a'.toNat + (n - 10))

/-- How `encoding/json` writes one code point inside a string with HTML escaping off
(json/marshal/json.go:9-15): quotes and backslashes with a backslash, line break, return and tab by
letter, other control characters and U+2028/2029 as `\uXXXX`.  (Newer Go versions write backspace
and form feed by letter; that difference is not modelled.) -/
def jsonEscapeChar (c : Char) : Str :=
  if c = '"' then ['\\', '"']
  else if c = '\\' then ['\\', '\\']
  else if c = '\n' then ['\\', 'n']
  else if c = '\r' then ['\\', 'r']
  else if c = '\t' then ['\\', 't']
  else if c.toNat < 0x20 ∨ c.toNat = 0x2028 ∨ c.toNat = 0x2029 then
    let n := c.toNat
    ['\\', 'u', hexDigit (n / 4096), hexDigit (n / 256 % 16), hexDigit (n / 16 % 16), hexDigit (n % 16)]
  else [c]

/-- `marshal.JSON` on a string (json/marshal/json.go:9-15): the escaped string in quotes. -/
def jsonQuote (s : Str) : Str := g!"\"" ++ s.flatMap jsonEscapeChar ++ g!"\""

/-- `strings.Trim(string(data), "\"")`. -/
def trimQuotes (s : Str) : Str := trim isQuote s

/-- `prefixDocumentId` / `prefixElementId` (spdx/v2/common/identifier.go:42-48, 86-92). -/
def prefixId (pre id : Str) : Str := if !hasPrefix pre id then pre ++ id else id

/-- `trimDocumentIdPrefix` / `trimElementIdPrefix` (spdx/v2/common/identifier.go:52-58, 96-102). -/
def trimIdPrefix (pre id : Str) : Res Str :=
  match cutPrefix pre id with
  | some r => if r = [] then .err else .ok r
  | none => .err

/-- `ElementID.MarshalJSON` (spdx/v2/common/identifier.go:67-69). -/
def elementIdToJson (id : Str) : Str := jsonQuote (prefixId spdxRefPrefix id)
/-- `ElementID.UnmarshalJSON` (spdx/v2/common/identifier.go:72-83). -/
def elementIdOfJson (data : Str) : Res Str := trimIdPrefix spdxRefPrefix (trimQuotes data)
/-- `DocumentID.MarshalJSON` (spdx/v2/common/identifier.go:23-25). -/
def documentIdToJson (id : Str) : Str := jsonQuote (prefixId documentRefPrefix id)
/-- `DocumentID.UnmarshalJSON` (spdx/v2/common/identifier.go:28-39). -/
def documentIdOfJson (data : Str) : Res Str := trimIdPrefix documentRefPrefix (trimQuotes data)

/-- `DocElementID.MarshalJSON` (spdx/v2/common/identifier.go:126-138). -/
def docElementIdToJson (d : DocElementID) : Res Str :=
  if d.documentRefID ≠ [] ∧ d.elementRefID ≠ [] then
    .ok (jsonQuote (prefixId documentRefPrefix d.documentRefID ++ g!":" ++
      prefixId spdxRefPrefix d.elementRefID))
  else if d.elementRefID ≠ [] then .ok (jsonQuote (prefixId spdxRefPrefix d.elementRefID))
  else if d.specialID ≠ [] then .ok (jsonQuote d.specialID)
  else .err

/-- `DocElementID.UnmarshalJSON` (spdx/v2/common/identifier.go:142-177).  The method updates its
receiver field by field and leaves the other fields as they were; `d0` is the receiver before the
call. -/
def docElementIdOfJson (d0 : DocElementID) (data : Str) : Res DocElementID :=
  let idStr := trimQuotes data
  if idStr = g!"NONE" ∨ idStr = g!"NOASSERTION" then .ok { d0 with specialID := idStr }
  else if hasPrefix documentRefPrefix idStr then
    match cut g!":" idStr with
    | none => do
      let d ← trimIdPrefix documentRefPrefix idStr
      .ok { d0 with documentRefID := d }
    | some (a, b) => do
      let d ← trimIdPrefix documentRefPrefix a
      let e ← trimIdPrefix spdxRefPrefix b
      .ok { d0 with documentRefID := d, elementRefID := e }
  else do
    let e ← trimIdPrefix spdxRefPrefix idStr
    .ok { d0 with elementRefID := e }

end Verif
