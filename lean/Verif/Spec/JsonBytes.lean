import Verif.Model.Bytes

/-!
# Specification: what bytes become that are not UTF-8
-/

namespace Verif.Spec

/-- The bytes read as text in UTF-8, with the replacement character U+FFFD for every byte that is part of no character. -/
inductive Repairs : Bytes → Str → Prop
  | nil : Repairs [] []
  | char (c : Char) {b : Bytes} {s : Str} (h : Repairs b s) : Repairs (bytesOf c ++ b) (c :: s)
  | other (x : UInt8) {b : Bytes} {s : Str} (hx : ∀ c r, x :: b ≠ bytesOf c ++ r) (h : Repairs b s) :
    Repairs (x :: b) (Char.ofNat 0xFFFD :: s)

/-- The keys of identifiers and agents. -/
def identifierKeys : List Str :=
  [g!"annotator", g!"creators", g!"documentDescribes", g!"externalDocumentId", g!"hasFiles", g!"originator", g!"reference",
   g!"relatedSpdxElement", g!"snippetFromFile", g!"SPDXID", g!"spdxElementId", g!"supplier"]

end Verif.Spec
