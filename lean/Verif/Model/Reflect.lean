import Verif.Model.ReadInto
import Verif.Model.TVWrite

/-!
# Documents passed as `AnyDocument`

The parameters of type `common.AnyDocument`, that is `interface{}` (spdx/common/types.go:6): what
`convert.Document`, `tagvalue.ReadInto` and `tagvalue.Write` do with documents, pointers, pointers to pointers,
nil pointers, variables of interface type and values of other types.
-/

namespace Verif

/-- Go types, as far as `reflect` tells them apart here (spdx/common/types.go:6). -/
inductive AnyType where
  | doc (v : Version)
  | other (name : Str)
  | ptr (t : AnyType)
  | any
  deriving DecidableEq, Repr

/-- Go values (spdx/common/types.go:6): documents, values of other types, pointers
to variables, nil pointers, and variables of interface type, which occur only behind pointers. -/
inductive AnyVal where
  | doc (v : Version) (d : Doc)
  | other (type content : Str)
  | ptr (x : AnyVal)
  | nilPtr (t : AnyType)
  | any (x : AnyVal)
  | nilAny
  deriving DecidableEq, Repr

/-- `reflect.TypeOf`. -/
def AnyVal.type : AnyVal → AnyType
  | .doc v _ => .doc v
  | .other n _ => .other n
  | .ptr x => .ptr x.type
  | .nilPtr t => .ptr t
  | .any _ => .any
  | .nilAny => .any

/-- The loop of `FromPtr` (convert/struct.go:14-18): following a nil pointer gives the zero `reflect.Value`,
whose `Type` panics.  The dynamic value of a variable of interface type is not followed further. -/
def follow : AnyVal → Res (Option AnyVal)
  | .ptr x => follow x
  | .nilPtr _ => .panic
  | .any x => .ok (some x)
  | .nilAny => .ok none
  | x => .ok (some x)

/-- `FromPtr` (convert/struct.go:13-19); the nil interface is `none`. -/
def fromPtr : Option AnyVal → Res (Option AnyVal)
  | none => .panic
  | some x => follow x

/-- `IsPtr` (convert/struct.go:21-27). -/
def isPointer : Option AnyVal → Res Bool
  | none => .panic
  | some (.ptr _) => .ok true
  | some (.nilPtr _) => .ok true
  | some _ => .ok false

/-- `reflect.ValueOf(to).Elem().Set(reflect.ValueOf(from))` (convert/chain.go:36): the pointer afterwards. -/
def setElem (from_ : Option AnyVal) : AnyVal → Res AnyVal
  | .ptr x => match from_ with
    | none => .panic
    | some f =>
      if x.type = .any then .ok (.ptr (.any f))
      else if x.type = f.type then .ok (.ptr f)
      else .panic
  | _ => .panic

/-- The chain of conversions (convert/chain.go:39): between documents as in `convertSteps`; what it does with
anything else is a parameter. -/
def chainConvert (copy : Version → Version → Doc → Doc) (rest : Option AnyVal → AnyVal → Res AnyVal) (from_ : Option AnyVal)
    (to : AnyVal) : Res AnyVal :=
  match from_, to with
  | some (.doc a d), .ptr (.doc b _) => .ok (.ptr (.doc b (convertSteps copy a b d)))
  | f, t => rest f t

/-- `convert.Document` (convert/chain.go:30-40): the second argument afterwards. -/
def convertInto (copy : Version → Version → Doc → Doc) (rest : Option AnyVal → AnyVal → Res AnyVal) (from_ to : Option AnyVal) :
    Res AnyVal := do
  let p ← isPointer to
  if !p then .err
  else do
    let f ← fromPtr from_
    let t ← fromPtr to
    match to with
    | none => .panic
    | some to =>
      if f.map AnyVal.type = t.map AnyVal.type then setElem f to
      else chainConvert copy rest f to

/-- The part of `ReadInto` (tagvalue/reader.go:36-68) before the conversion: the version and the document, which
may be missing. -/
def loadTagValue (text : Str) : Res (Version × Option Doc) := do
  let tvs ← readTagValues text
  if tvs = [] then .err
  else match versionNamed (statedVersion tvs) with
    | none => .err
    | some v => do
      let d ← parseTagValues v tvs
      return (v, d)

/-- `tagvalue.ReadInto` (tagvalue/reader.go:32-71) into any variable: the argument afterwards. -/
def readIntoVariable (copy : Version → Version → Doc → Doc) (rest : Option AnyVal → AnyVal → Res AnyVal) (text : Str)
    (to : Option AnyVal) : Res AnyVal := do
  let p ← isPointer to
  if !p then .err
  else do
    let (v, d) ← loadTagValue text
    match d with
    | none => convertInto copy rest (some (.nilPtr (.doc v))) to
    | some d => convertInto copy rest (some (.ptr (.doc v d))) to

/-- `Describe` (convert/struct.go:29-41): whether it panics; the text is not modelled.  `shown` is the text of a
value in the format `%+v`, `cap` as in `limit`. -/
def describe (cap : Nat → Nat) (shown : AnyVal → Str) : AnyVal → Res Unit
  | .ptr x => describe cap shown x
  | .nilPtr _ => .panic
  | .any x => do
    let _ ← limit cap (shown x) 300
    return ()
  | .nilAny => .ok ()
  | x => do
    let _ ← limit cap (shown x) 300
    return ()

/-- `tagvalue.Write` (tagvalue/writer.go:23-34) of anything. -/
def writeVariable (cap : Nat → Nat) (shown : AnyVal → Str) (so : Sorter) (doc : Option AnyVal) : Res Str := do
  let x ← fromPtr doc
  match x with
  | some (.doc v d) => writeTagValue v so d
  | none => .panic
  | some x => do
    let _ ← describe cap shown x
    .err

end Verif
