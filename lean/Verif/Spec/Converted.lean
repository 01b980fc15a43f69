import Verif.Spec.ReadInto

/-!
# Specification: what a conversion between versions keeps

Specification of C62: the fields that a version does not have.
-/

namespace Verif

/-- The older of two versions. -/
def older : Version → Version → Version
  | .v21, _ | _, .v21 => .v21
  | .v22, _ | _, .v22 => .v22
  | .v23, .v23 => .v23

/-- A snippet without what version `v` does not have: the attribution texts came with 2.2. -/
def snippetIn (v : Version) (s : Snippet) : Snippet :=
  if v = .v21 then { s with attributionTexts := [] } else s

/-- A file without what version `v` does not have: the attribution texts came with 2.2. -/
def fileIn (v : Version) (f : FileV) : FileV :=
  { f with
    attributionTexts := if v = .v21 then [] else f.attributionTexts
    snippets := f.snippets.map fun e => (e.1, snippetIn v e.2) }

/-- A package without what version `v` does not have: attribution texts and the mark for unpackaged files came with
2.2, purpose and dates with 2.3. -/
def packageIn (v : Version) (p : PackageV) : PackageV :=
  { p with
    isUnpackaged := if v = .v21 then false else p.isUnpackaged
    attributionTexts := if v = .v21 then [] else p.attributionTexts
    primaryPurpose := if v = .v23 then p.primaryPurpose else []
    releaseDate := if v = .v23 then p.releaseDate else []
    builtDate := if v = .v23 then p.builtDate else []
    validUntilDate := if v = .v23 then p.validUntilDate else []
    files := p.files.map (fileIn v) }

/-- A document without what version `v` does not have. -/
def documentIn (v : Version) (d : Doc) : Doc :=
  { d with
    packages := d.packages.map (packageIn v)
    files := d.files.map (fileIn v)
    snippets := d.snippets.map (snippetIn v) }

/-- No difference is made between no verification code and an empty one. -/
def plainCode (p : PackageV) : PackageV :=
  { p with verificationCode := if p.verificationCode = some {} then none else p.verificationCode }

/-- The document with all verification codes in that form. -/
def plainCodes (d : Doc) : Doc := { d with packages := d.packages.map plainCode }

/-- The document with another stated version. -/
def restated (name : Str) (d : Doc) : Doc := { d with spdxVersion := name }

/-- `d'` is `d` in version `b`: if that is its version `a` already, it is unchanged; else it is the same document but
for the stated version, the fields one of the versions does not have, and empty verification codes. -/
def ConvertedDoc (a b : Version) (d d' : Doc) : Prop :=
  (a = b → d' = d) ∧
  (a ≠ b → Spec.VersionNamed d'.spdxVersion b ∧
    plainCodes d' = restated d'.spdxVersion (plainCodes (documentIn (older a b) d)))

/-- Packages, files and snippets have identifiers, and nothing the document points to is entirely empty. -/
structure Solid (d : Doc) : Prop where
  creationInfo : d.creationInfo ≠ some {}
  packages : ∀ p ∈ d.packages, p.spdxId ≠ [] ∧ p.supplier ≠ some {} ∧ p.originator ≠ some {} ∧
    (∀ r ∈ p.externalRefs, r ≠ {})
  files : ∀ f, f ∈ d.files ∨ (∃ p ∈ d.packages, f ∈ p.files) → f.spdxId ≠ [] ∧ (∀ a ∈ f.artifactOfProjects, a ≠ {}) ∧
    (∀ e ∈ f.snippets, e.2.spdxId ≠ [])
  otherLicenses : ∀ l ∈ d.otherLicenses, l ≠ {}
  relationships : ∀ r ∈ d.relationships, r ≠ {}
  annotations : ∀ a ∈ d.annotations, a ≠ {}
  reviews : ∀ r ∈ d.reviews, r ≠ {}

end Verif
