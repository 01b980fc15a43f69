import Verif.Spec.Outline
import Verif.Spec.Meaning

/-!
# What the relationships of a tag-value text refer to
-/

namespace Verif.Spec

/-- The identifier of the document, of a package section, or of a file section before the first package section. -/
def NamedInText (tvs : List TVPair) (id : Str) : Prop :=
  id = g!"DOCUMENT" ∨ (∃ e ∈ packagesWithFiles tvs, g!"SPDXRef-" ++ id ∈ e.1.2) ∨ ∃ e ∈ looseFiles tvs, g!"SPDXRef-" ++ id ∈ e.2

/-- The word refers to an identifier of the text; a reference to another document counts by its second part. -/
def RefersToNamed (tvs : List TVPair) (w : Str) : Prop := ∃ r, RefReads w r ∧ NamedInText tvs r.elementRefID

/-- The value of a relationship says that the document describes the element; `NONE` and `NOASSERTION` count as an element
without identifier. -/
def ValueDescribes (value : Str) (id : Str) : Prop :=
  (∃ b, wordsOf value = [g!"SPDXRef-DOCUMENT", g!"DESCRIBES", b] ∧
    ((∃ r, RefReads b r ∧ r.elementRefID = id) ∨ ((b = g!"NONE" ∨ b = g!"NOASSERTION") ∧ id = []))) ∨
  ∃ a, wordsOf value = [a, g!"DESCRIBED_BY", g!"SPDXRef-DOCUMENT"] ∧ ∃ r, RefReads a r ∧ r.elementRefID = id

end Verif.Spec
