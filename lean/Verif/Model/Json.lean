import Verif.Model.Agents

/-!
# JSON values and `encoding/json`

Trusted reading of the Go package `encoding/json` (not part of `/repo`) at the level of JSON values: how
it encodes structs by their `json:"key,omitempty"` tags and decodes objects into them.  A string value holds
its text as written between the quotes, because the decoders of this library look at that text.  Printing a
value as text and scanning it back is in `Verif.Model.JsonText`.
-/

namespace Verif

/-- A JSON value.  `str` holds the text between the quotes (with escapes), `num` the literal; object keys
are unescaped. -/
inductive Json where
  | null
  | bool (b : Bool)
  | num (literal : Str)
  | str (raw : Str)
  | arr (l : List Json)
  | obj (l : List (Str × Json))

mutual
/-- The compact text of a value.  Simplification: a custom decoder gets the text as written, which may
have white space between tokens inside objects and arrays. -/
def Json.text : Json → Str
  | .null => g!"null"
  | .bool true => g!"true"
  | .bool false => g!"false"
  | .num l => l
  | .str raw => g!"\"" ++ raw ++ g!"\""
  | .arr l => g!"[" ++ Json.textList l ++ g!"]"
  | .obj l => g!"{" ++ Json.textFields l ++ g!"}"
/-- Comma-separated values. -/
def Json.textList : List Json → Str
  | [] => []
  | [j] => Json.text j
  | j :: l => Json.text j ++ g!"," ++ Json.textList l
/-- Comma-separated entries. -/
def Json.textFields : List (Str × Json) → Str
  | [] => []
  | [(k, j)] => jsonQuote k ++ g!":" ++ Json.text j
  | (k, j) :: l => jsonQuote k ++ g!":" ++ Json.text j ++ g!"," ++ Json.textFields l
end

/-- Value of a hexadecimal digit. -/
def hexVal (c : Char) : Option Nat :=
  if '0'.toNat ≤ c.toNat ∧ c.toNat ≤ '9'.toNat then some (c.toNat - '0'.toNat)
  else if 'a'.toNat ≤ c.toNat ∧ c.toNat ≤ 'f'.toNat then some (c.toNat - 'a'.toNat + 10)
  else if 'A'.toNat ≤ c.toNat ∧ c.toNat ≤ 'F'.toNat then some (c.toNat - 'A'.toNat + 10)
  else none

/-- Four hexadecimal digits. -/
def hex4 (a b c d : Char) : Option Nat := do
  let a ← hexVal a
  let b ← hexVal b
  let c ← hexVal c
  let d ← hexVal d
  some (((a * 16 + b) * 16 + c) * 16 + d)

/-- The parts of a JSON string: characters, and numbers written as `\\uXXXX`. -/
def unescapeUnits : Str → Option (List (Char ⊕ Nat))
  | [] => some []
  | '\\' :: 'u' :: a :: b :: c :: d :: t => do
    let n ← hex4 a b c d
    (unescapeUnits t).map (.inr n :: ·)
  | '\\' :: e :: t =>
    if e = '"' ∨ e = '\\' ∨ e = '/' then (unescapeUnits t).map (.inl e :: ·)
    else if e = 'b' then (unescapeUnits t).map (.inl '\x08' :: ·)
    else if e = 'f' then (unescapeUnits t).map (.inl '\x0c' :: ·)
    else if e = 'n' then (unescapeUnits t).map (.inl '\n' :: ·)
    else if e = 'r' then (unescapeUnits t).map (.inl '\r' :: ·)
    else if e = 't' then (unescapeUnits t).map (.inl '\t' :: ·)
    else none
  | c :: t => if c = '\\' then none else (unescapeUnits t).map (.inl c :: ·)

/-- A number below 0x10000 as character; surrogates are replaced. -/
def unitChar (n : Nat) : Char := if 0xD800 ≤ n ∧ n < 0xE000 then Char.ofNat 0xFFFD else Char.ofNat n

/-- The characters: pairs of surrogates are combined. -/
def combineUnits : List (Char ⊕ Nat) → Str
  | [] => []
  | .inl c :: t => c :: combineUnits t
  | [.inr n] => [unitChar n]
  | .inr n :: .inl c :: t => unitChar n :: c :: combineUnits t
  | .inr n :: .inr m :: t =>
    if (0xD800 ≤ n ∧ n < 0xDC00) ∧ 0xDC00 ≤ m ∧ m < 0xE000 then
      Char.ofNat (0x10000 + (n - 0xD800) * 0x400 + (m - 0xDC00)) :: combineUnits t
    else unitChar n :: combineUnits (.inr m :: t)

/-- The text a JSON string stands for (`unquote` of encoding/json/decode.go). -/
def unescape (s : Str) : Option Str := (unescapeUnits s).map combineUnits

/-- What `json.Encoder` with `SetEscapeHTML(true)`, its default, makes of a character of a string. -/
def escapeHtmlChar (c : Char) : Str :=
  if c = '<' then g!"\\u003c" else if c = '>' then g!"\\u003e" else if c = '&' then g!"\\u0026" else [c]

mutual
/-- HTML escaping of all strings of a value; object keys need none. -/
def Json.escapeHtml : Json → Json
  | .null => .null
  | .bool b => .bool b
  | .num l => .num l
  | .str raw => .str (raw.flatMap escapeHtmlChar)
  | .arr l => .arr (Json.escapeHtmlList l)
  | .obj l => .obj (Json.escapeHtmlFields l)
/-- The same for the values of a list. -/
def Json.escapeHtmlList : List Json → List Json
  | [] => []
  | j :: l => Json.escapeHtml j :: Json.escapeHtmlList l
/-- The same for the entries of an object. -/
def Json.escapeHtmlFields : List (Str × Json) → List (Str × Json)
  | [] => []
  | (k, j) :: l => (k, Json.escapeHtml j) :: Json.escapeHtmlFields l
end

mutual
/-- A value decoded into a map and encoded again: the keys of all objects are sorted.  Simplification:
strings and numbers are kept as they are, which is right for values the encoder produced without
numbers. -/
def Json.sortKeys (so : Sorter) : Json → Json
  | .null => .null
  | .bool b => .bool b
  | .num l => .num l
  | .str raw => .str raw
  | .arr l => .arr (Json.sortKeysList so l)
  | .obj l => .obj (so.run (·.1) (Json.sortKeysFields so l))
/-- The same for the values of a list. -/
def Json.sortKeysList (so : Sorter) : List Json → List Json
  | [] => []
  | j :: l => Json.sortKeys so j :: Json.sortKeysList so l
/-- The same for the entries of an object. -/
def Json.sortKeysFields (so : Sorter) : List (Str × Json) → List (Str × Json)
  | [] => []
  | (k, j) :: l => (k, Json.sortKeys so j) :: Json.sortKeysFields so l
end

/-- Applies a function that can fail to all elements. -/
def mapRes {α β : Type} (f : α → Res β) : List α → Res (List β)
  | [] => .ok []
  | a :: l => do
    let b ← f a
    let m ← mapRes f l
    .ok (b :: m)

/-- Encoding and decoding of a Go type.  The decoder updates a variable, whose value it gets. -/
structure Codec (β : Type) where
  enc : β → Res Json
  dec : Json → β → Res β

/-- A Go string. -/
def strCodec : Codec Str where
  enc s := .ok (.str (s.flatMap jsonEscapeChar))
  dec
    | .str raw, _ => Res.ofOption (unescape raw)
    | .null, s => .ok s
    | _, _ => .err

/-- A Go bool. -/
def boolCodec : Codec Bool where
  enc b := .ok (.bool b)
  dec
    | .bool b, _ => .ok b
    | .null, s => .ok s
    | _, _ => .err

/-- A Go int. -/
def intCodec : Codec Int where
  enc n := .ok (.num (itoa n))
  dec
    | .num l, _ => Res.ofOption (atoi l)
    | .null, s => .ok s
    | _, _ => .err

/-- A Go slice.  Go writes a nil slice as `null` and an empty one as `[]`; this has only the nil
slice, Model/EmptyLists.lean both.  `zero` is the zero value of the elements. -/
def listCodec {β : Type} (zero : β) (c : Codec β) : Codec (List β) where
  enc
    | [] => .ok .null
    | a :: l => do
      let js ← mapRes c.enc (a :: l)
      .ok (.arr js)
  dec
    | .arr l, _ => mapRes (fun j => c.dec j zero) l
    | .null, _ => .ok []
    | _, _ => .err

/-- A Go slice of pointers.  Simplification: `null` elements, which become nil pointers, are
rejected; `nilListCodec` has them. -/
def ptrListCodec {β : Type} (zero : β) (c : Codec β) : Codec (List β) :=
  listCodec zero { enc := c.enc, dec := fun j s => match j with | .null => .err | j => c.dec j s }

/-- A Go pointer. -/
def ptrCodec {β : Type} (zero : β) (c : Codec β) : Codec (Option β) where
  enc
    | none => .ok .null
    | some b => c.enc b
  dec
    | .null, _ => .ok none
    | j, none => do
      let b ← c.dec j zero
      .ok (some b)
    | j, some old => do
      let b ← c.dec j old
      .ok (some b)

/-- A field of a struct with its tag. -/
structure Field (σ : Type) where
  β : Type
  key : Str
  get : σ → β
  set : β → σ → σ
  /-- `omitempty`: whether the value is empty -/
  isEmpty : β → Bool
  codec : Codec β

/-- Case folding of object keys: ASCII letters, and the two other characters that fold to ASCII,
the long s and the sign for Kelvin. -/
def foldChar (c : Char) : Char :=
  if c = 'ſ' then 'S' else if c = '\u212a' then 'K' else c.toUpper

/-- Two keys name the same field.  The keys of every struct below are different up to case, so that exact
matches need no precedence. -/
def sameKey (a b : Str) : Bool := a.map foldChar = b.map foldChar

/-- The entries of a struct. -/
def encodeFields {σ : Type} (s : σ) : List (Field σ) → Res (List (Str × Json))
  | [] => .ok []
  | f :: fs =>
    if f.isEmpty (f.get s) then encodeFields s fs
    else do
      let j ← f.codec.enc (f.get s)
      let es ← encodeFields s fs
      .ok ((f.key, j) :: es)

/-- Decodes all entries for a field, in order, into the same variable.  Simplification: a slice
that is given twice is replaced; Model/Reuse.lean has it used again. -/
def decodeEntries {σ : Type} (f : Field σ) : List (Str × Json) → σ → Res σ
  | [], s => .ok s
  | (k, j) :: es, s =>
    if sameKey f.key k then do
      let b ← f.codec.dec j (f.get s)
      decodeEntries f es (f.set b s)
    else decodeEntries f es s

/-- Decodes the entries of an object into a struct, field by field; Go goes through the entries once, but
fields are independent. -/
def decodeFields {σ : Type} (es : List (Str × Json)) : List (Field σ) → σ → Res σ
  | [], s => .ok s
  | f :: fs, s => do
    let s ← decodeEntries f es s
    decodeFields es fs s

/-- A Go struct. -/
def structCodec {σ : Type} (fs : List (Field σ)) : Codec σ where
  enc s := do
    let es ← encodeFields s fs
    .ok (.obj es)
  dec
    | .obj es, s => decodeFields es fs s
    | .null, s => .ok s
    | _, _ => .err

/-- What the encoder makes of the text of a custom marshaller of this library, all of which return a
quoted string; it rejects an empty text. -/
def ofMarshaled : Str → Res Json
  | '"' :: t => .ok (.str t.dropLast)
  | _ => .err

/-- A type with custom marshaller and unmarshaller. -/
def textCodec {β : Type} (toJson : β → Res Str) (ofJson : β → Str → Res β) : Codec β where
  enc b := do
    let t ← toJson b
    ofMarshaled t
  dec j s := ofJson s j.text

end Verif
