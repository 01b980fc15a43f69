import Verif.Model.Rdf
import Verif.Model.JsonDoc

/-!
# Reading RDF into a document variable

`rdf/reader.go`.
-/

namespace Verif

/-- The result of a conversion as a result of reading. -/
def ROut.ofRes {α : Type} : Res α → ROut α
  | .ok a => .ok a
  | .err => .err
  | .panic => .panic

/-- `ReadInto` (rdf/reader.go:31-60) into a variable of version `target`; `isPtr` says whether the variable is given by
pointer, `copy` is as in `convertSteps`.  The triples of the input, `none` if the RDF library reports an error, are
given. -/
def readRdfInto (copy : Version → Version → Doc → Doc) (isPtr : Bool) (o : MapOrder) (target : Version) (input : Option Graph) : ROut Doc :=
  if !isPtr then .err
  else match input with
    | none => .err
    | some g =>
      match graphVersion g with
      | none => .err
      | some x =>
        if x = g!"SPDX-2.2" then readAs .v22 g
        else if x = g!"SPDX-2.3" then readAs .v23 g
        else .err
where
  /-- Reading by the rules of a version and converting (rdf/reader.go:47-59). -/
  readAs (v : Version) (g : Graph) : ROut Doc :=
    match loadGraph v o g with
    | .ok d => ROut.ofRes (convertDocument copy isPtr v target d)
    | .err => .err
    | .panic => .panic
    | .cut => .cut

end Verif
