import Verif.Spec.JsonSays
import Verif.Spec.SpdxLib

/-!
# What the relationships of a JSON document refer to
-/

namespace Verif.Spec

/-- The entries of the array under a key. -/
def itemsAt (key : Str) (es : List (Str × Json)) : List Json := (entries key es).flatMap fun j => match j with
  | .arr js => js
  | _ => []

/-- The identifier of the document, or of an entry of `packages` or `files`. -/
def NamedInJson (es : List (Str × Json)) (id : Str) : Prop :=
  id = g!"DOCUMENT" ∨ ∃ key o, (key = g!"packages" ∨ key = g!"files") ∧ .obj o ∈ itemsAt key es ∧ HasId o g!"SPDXID" id

/-- The object says that `r` holds: under `relationships`, under `documentDescribes`, or under `hasFiles` of a package.  The last two
count from version 2.2 on. -/
def LinkInJson (v : Version) (es : List (Str × Json)) (r : Relationship) : Prop :=
  (∃ o, .obj o ∈ itemsAt g!"relationships" es ∧ RelationshipIs o r) ∨
  (v ≠ .v21 ∧ ∃ id j b, HasId es g!"SPDXID" id ∧ j ∈ itemsAt g!"documentDescribes" es ∧ RefIs j b ∧ r = ofElement id g!"DESCRIBES" b) ∨
  (v ≠ .v21 ∧ ∃ o id j b, .obj o ∈ itemsAt g!"packages" es ∧ HasId o g!"SPDXID" id ∧ j ∈ itemsAt g!"hasFiles" o ∧ RefIs j b ∧
    r = ofElement id g!"CONTAINS" b)

end Verif.Spec
