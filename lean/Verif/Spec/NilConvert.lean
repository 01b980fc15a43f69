import Verif.Spec.Converted
import Verif.Spec.NilEntries

/-!
# Specification: what a conversion does with missing entries

Specification of C90, for documents some of whose entries are missing (`NDoc`).
-/

namespace Verif.Spec

/-- A file without what version `v` does not have and without missing snippets.  Missing artifacts stay. -/
def nFileIn (v : Version) (n : NFile) : NFile :=
  { file := fileIn v n.file
    artifacts := n.artifacts
    snippets := (n.snippets.filter fun e => e.2.isSome).map fun e => (e.1, e.2.map (snippetIn v)) }

/-- A package without what version `v` does not have.  Missing references and files stay. -/
def nPackageIn (v : Version) (n : NPackage) : NPackage :=
  { pkg := packageIn v n.pkg
    externalRefs := n.externalRefs
    files := n.files.map (Option.map (nFileIn v)) }

/-- A document without what version `v` does not have.  Missing entries stay where they are, but for snippets. -/
def nDocumentIn (v : Version) (n : NDoc) : NDoc :=
  { n with
    doc := documentIn v n.doc
    packages := n.packages.map (Option.map (nPackageIn v))
    files := n.files.map (Option.map (nFileIn v)) }

/-- No difference is made between no verification code and an empty one. -/
def nPlainCodes (n : NDoc) : NDoc :=
  { n with packages := n.packages.map (Option.map fun p => { p with pkg := plainCode p.pkg }) }

/-- The document with another stated version. -/
def nRestated (name : Str) (n : NDoc) : NDoc := { n with doc := restated name n.doc }

/-- `n'` is `n` in version `b`, as in `ConvertedDoc`. -/
def ConvertedNDoc (a b : Version) (n n' : NDoc) : Prop :=
  (a = b → n' = n) ∧
  (a ≠ b → VersionNamed n'.doc.spdxVersion b ∧
    nPlainCodes n' = nRestated n'.doc.spdxVersion (nPlainCodes (nDocumentIn (older a b) n)))

/-- A file that is there has an identifier, and what it points to is missing or not empty; snippets have
identifiers. -/
def NSolidFile (f : NFile) : Prop :=
  f.file.spdxId ≠ [] ∧ some {} ∉ f.artifacts ∧ ∀ e ∈ f.snippets, ∀ s, e.2 = some s → s.spdxId ≠ []

/-- The same for a package. -/
def NSolidPackage (p : NPackage) : Prop :=
  p.pkg.spdxId ≠ [] ∧ p.pkg.supplier ≠ some {} ∧ p.pkg.originator ≠ some {} ∧ some {} ∉ p.externalRefs ∧
    ∀ f, some f ∈ p.files → NSolidFile f

/-- Packages, files and snippets that are there have identifiers, and nothing the document points to is entirely
empty.  Entries may be missing. -/
structure NSolid (n : NDoc) : Prop where
  creationInfo : n.doc.creationInfo ≠ some {}
  packages : ∀ p, some p ∈ n.packages → NSolidPackage p
  files : ∀ f, some f ∈ n.files → NSolidFile f
  otherLicenses : some {} ∉ n.otherLicenses
  relationships : some {} ∉ n.relationships
  annotations : some {} ∉ n.annotations
  reviews : some {} ∉ n.reviews

end Verif.Spec
