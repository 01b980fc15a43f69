import Verif.Spec.Converted
import Verif.Spec.Savable
import Verif.Model.Convert
import Verif.Model.TVWrite
import Verif.Model.ReadInto

/-!
# Specification: saving a document in another version

Specification of C78.
-/

namespace Verif.Spec

/-- The checksums of packages and files. -/
def checksumsOf (d : Doc) : List Checksum :=
  d.packages.flatMap (fun p => p.checksums ++ p.files.flatMap fun f => f.checksums) ++ d.files.flatMap fun f => f.checksums

/-- What the document says can be said in version `w`: its checksums use algorithms of `w`, and NONE and NOASSERTION, which
came with 2.2, are not the ends of relationships in 2.1. -/
structure SayableIn (w : Version) (d : Doc) : Prop where
  algorithms : ∀ c ∈ checksumsOf d, c.algorithm ∈ algorithmsOf w
  ends : w = .v21 → ∀ r ∈ d.relationships, ¬ SpecialRef r.refB

/-- Every project that a file is an artifact of says something about itself. -/
def ArtifactsGiven (d : Doc) : Prop :=
  ∀ f, f ∈ d.files ∨ (∃ p ∈ d.packages, f ∈ p.files) → ∀ a ∈ f.artifactOfProjects, a ≠ {}

/-- The document `d` of version `v` as one of version `w`: it states the new version, and what one of the two versions has no
field for is gone. -/
def inVersion (v w : Version) (d : Doc) : Doc := restated (versionName w) (documentIn (older v w) d)

/-- One stop of a text on its way: the version of the variable it is read into and written from, and the sorting routine of
the writer. -/
structure Stop where
  version : Version
  sorter : Sorter

/-- A program reads a text into a variable of a version (tagvalue.ReadInto) and writes the document again (tagvalue.Write). -/
def resave (lib : Copier) (s : Stop) (text : Str) : Res Str := do
  let e ← readTagValueInto (structCopied lib) true s.version text
  writeTagValue s.version s.sorter e

/-- One program after the other does so. -/
def resaveAll (lib : Copier) : List Stop → Str → Res Str
  | [], text => .ok text
  | s :: stops, text => do
    let text' ← resave lib s text
    resaveAll lib stops text'

/-- All the text says about its version is that it is `v`. -/
def OnlyVersion (v : Version) (tvs : List TVPair) : Prop :=
  ⟨g!"SPDXVersion", versionName v⟩ ∈ tvs ∧ ∀ p ∈ tvs, p.tag = g!"SPDXVersion" → p.value = versionName v

end Verif.Spec
