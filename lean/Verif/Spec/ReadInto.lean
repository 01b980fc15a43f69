import Verif.Model.JsonDoc
import Verif.Model.TVRead

/-!
# Specification: stated versions
-/

namespace Verif.Spec

/-- The three supported versions by name. -/
def VersionNamed (name : Str) (v : Version) : Prop :=
  (name = g!"SPDX-2.1" ∧ v = .v21) ∨ (name = g!"SPDX-2.2" ∧ v = .v22) ∨ (name = g!"SPDX-2.3" ∧ v = .v23)

/-- `name` is the value of the first `SPDXVersion` pair. -/
def FirstVersion (tvs : List TVPair) (name : Str) : Prop :=
  ∃ before after, tvs = before ++ ⟨g!"SPDXVersion", name⟩ :: after ∧ ∀ p ∈ before, p.tag ≠ g!"SPDXVersion"

/-- `d` is the document `d0` of version `v`, converted to version `target`: unchanged if that is its version,
and otherwise with the version renamed. -/
def ConvertedTo (v target : Version) (d0 d : Doc) : Prop :=
  if v = target then d = d0 else VersionNamed d.spdxVersion target

end Verif.Spec
