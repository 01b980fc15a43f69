import Verif.Spec.JsonSays
import Verif.Spec.ReadInto

/-!
# What an object with repeated keys says

The last value under a key says how long a list is and what the version is.
-/

namespace Verif.Spec
open Verif

/-- The number of elements of an array, none for other values. -/
def valueLength : Json → Nat
  | .arr l => l.length
  | _ => 0

/-- The number of elements of the last value under a key, upper or lower case; none if there is no such key. -/
def lengthUnder (key : Str) (es : List (Str × Json)) : Nat := ((entries key es).getLast?.map valueLength).getD 0

/-- The last value under the key of the version, spelled exactly, is the name of `v`. -/
def LastStates (es : List (Str × Json)) (v : Version) : Prop :=
  ∃ raw name, ((es.filter fun e => e.1 = g!"spdxVersion").map (·.2)).getLast? = some (.str raw) ∧ unescape raw = some name ∧ VersionNamed name v

/-- The lists of a document are as long as the last value under their keys. -/
structure LengthsOf (es : List (Str × Json)) (d : Doc) : Prop where
  externalDocumentRefs : d.externalDocumentRefs.length = lengthUnder g!"externalDocumentRefs" es
  packages : d.packages.length = lengthUnder g!"packages" es
  files : d.files.length = lengthUnder g!"files" es
  otherLicenses : d.otherLicenses.length = lengthUnder g!"hasExtractedLicensingInfos" es
  annotations : d.annotations.length = lengthUnder g!"annotations" es
  snippets : d.snippets.length = lengthUnder g!"snippets" es

end Verif.Spec
