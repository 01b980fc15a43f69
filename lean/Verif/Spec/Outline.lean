import Verif.Model.Types
import Verif.Model.TVRead

/-!
# Specification: the outline of a tag-value text

Which package and file sections a list of pairs has, read off the pairs alone.
-/

namespace Verif.Spec

/-- A section: the value of its `PackageName` or `FileName` tag, and the values of the `SPDXID` tags
up to the next such tag. -/
abbrev Entry := Str × List Str

/-- Reading the pairs from the end: the `SPDXID` values before the first section, the file sections
before the first package section, and the package sections, each with the file sections up to the
next package section. -/
def outlineFrom : List TVPair → List Str × List Entry × List (Entry × List Entry)
  | [] => ([], [], [])
  | p :: ps =>
    let (ids, loose, packages) := outlineFrom ps
    if p.tag = g!"PackageName" then ([], [], ((p.value, ids), loose) :: packages)
    else if p.tag = g!"FileName" then ([], (p.value, ids) :: loose, packages)
    else if p.tag = g!"SPDXID" then (p.value :: ids, loose, packages)
    else (ids, loose, packages)

/-- The file sections before any package section. -/
def looseFiles (tvs : List TVPair) : List Entry := (outlineFrom tvs).2.1

/-- The package sections, each with the file sections that follow it up to the next one. -/
def packagesWithFiles (tvs : List TVPair) : List (Entry × List Entry) := (outlineFrom tvs).2.2

/-- What a file contributes to the outline. -/
def fileEntry (f : FileV) : Entry := (f.name, [g!"SPDXRef-" ++ f.spdxId])

/-- What a package contributes to the outline. -/
def packageEntry (p : PackageV) : Entry × List Entry :=
  ((p.name, [g!"SPDXRef-" ++ p.spdxId]), p.files.map fileEntry)

/-- No section repeats its identifier. -/
def IdsNotRepeated (tvs : List TVPair) : Prop :=
  (∀ e ∈ looseFiles tvs, e.2.length ≤ 1) ∧
  (∀ g ∈ packagesWithFiles tvs, g.1.2.length ≤ 1 ∧ ∀ e ∈ g.2, e.2.length ≤ 1)

instance (tvs : List TVPair) : Decidable (IdsNotRepeated tvs) := by unfold IdsNotRepeated; infer_instance

/-- Every package section has a name. -/
def PackagesNamed (tvs : List TVPair) : Prop := ∀ p ∈ tvs, p.tag = g!"PackageName" → p.value ≠ []

instance (tvs : List TVPair) : Decidable (PackagesNamed tvs) := by unfold PackagesNamed; infer_instance

end Verif.Spec
