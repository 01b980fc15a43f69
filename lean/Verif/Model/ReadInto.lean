import Verif.Model.TVParse
import Verif.Model.JsonDoc

/-!
# Reading tag-value into a document variable

`tagvalue/reader.go`, `convert/struct.go`.
-/

namespace Verif

/-- The value of the first `SPDXVersion` pair; empty if there is none (tagvalue/reader.go:46-52). -/
def statedVersion : List TVPair → Str
  | [] => []
  | p :: ps => if p.tag = g!"SPDXVersion" then p.value else statedVersion ps

/-- `ReadInto` (tagvalue/reader.go:32-71) into a variable of version `target`; `isPtr` says whether the variable
is given by pointer, `copy` is as in `convertSteps`.  The parser returning no document would make
`convert.Document` follow a nil pointer (convert/struct.go:13-19). -/
def readTagValueInto (copy : Version → Version → Doc → Doc) (isPtr : Bool) (target : Version) (text : Str) : Res Doc :=
  if !isPtr then .err
  else do
    let tvs ← readTagValues text
    if tvs = [] then .err
    else match versionNamed (statedVersion tvs) with
      | none => .err
      | some v => do
        match ← parseTagValues v tvs with
        | none => .panic
        | some d => convertDocument copy isPtr v target d

/-- `limit` (convert/struct.go:43-50).  Slicing a slice up to `length` panics if that is beyond its capacity;
the capacity of the converted runes is at least their number and left open (`cap`); slots between
length and capacity hold zero. -/
def limit (cap : Nat → Nat) (text : Str) (length : Int) : Res Str :=
  if length ≤ 0 ∨ (byteLen text : Int) ≤ length + 3 then .ok text
  else
    let n := length.toNat
    if n ≤ max text.length (cap text.length) then
      .ok (text.take n ++ List.replicate (n - text.length) (Char.ofNat 0) ++ g!"...")
    else .panic

end Verif
