import Verif.Model.Types
import Verif.Model.TVRead

/-!
# Specification: what a parsed document looks like
-/

namespace Verif.Spec

/-- A usable SPDX identifier (without its `SPDXRef-` prefix). -/
def IsId (s : Str) : Prop := s ≠ [] ∧ ':' ∉ s

instance (s : Str) : Decidable (IsId s) := by unfold IsId; infer_instance

/-- All files of a document: the unpackaged ones and those of its packages. -/
def allFiles (d : Doc) : List FileV := d.files ++ d.packages.flatMap fun p => p.files

/-- The checksum algorithms of an SPDX version. -/
def algorithmsOf (v : Version) : List Str :=
  [g!"SHA1", g!"SHA256", g!"MD5"] ++
  (if v = .v21 then [] else [g!"SHA224", g!"SHA384", g!"SHA512", g!"MD2", g!"MD4", g!"MD6"]) ++
  (if v = .v23 then [g!"SHA3-256", g!"SHA3-384", g!"SHA3-512", g!"BLAKE2b-256", g!"BLAKE2b-384",
    g!"BLAKE2b-512", g!"BLAKE3", g!"ADLER32"] else [])

/-- The kinds of creators, annotators and reviewers. -/
def agentKinds : List Str := [g!"Person", g!"Organization", g!"Tool"]

/-- The kinds of suppliers and originators. -/
def partyKinds : List Str := [g!"Person", g!"Organization"]

/-- A reference to an element of this document (`documentRefID = []`) or of another one. -/
structure ElementRef (r : DocElementID) : Prop where
  element : IsId r.elementRefID
  document : ':' ∉ r.documentRefID
  notSpecial : r.specialID = []

/-- The special right ends. -/
def SpecialRef (r : DocElementID) : Prop :=
  r = { specialID := g!"NONE" } ∨ r = { specialID := g!"NOASSERTION" }

/-- The tags of an SPDX version. -/
def tagsOf (v : Version) : List Str :=
  [ -- document creation
    g!"SPDXVersion", g!"DataLicense", g!"SPDXID", g!"DocumentName", g!"DocumentNamespace",
    g!"ExternalDocumentRef", g!"DocumentComment", g!"LicenseListVersion", g!"Creator", g!"Created",
    g!"CreatorComment",
    -- package
    g!"PackageName", g!"PackageVersion", g!"PackageFileName", g!"PackageSupplier", g!"PackageOriginator",
    g!"PackageDownloadLocation", g!"FilesAnalyzed", g!"PackageVerificationCode", g!"PackageChecksum",
    g!"PackageHomePage", g!"PackageSourceInfo", g!"PackageLicenseConcluded",
    g!"PackageLicenseInfoFromFiles", g!"PackageLicenseDeclared", g!"PackageLicenseComments",
    g!"PackageCopyrightText", g!"PackageSummary", g!"PackageDescription", g!"PackageComment",
    g!"ExternalRef", g!"ExternalRefComment",
    -- file
    g!"FileName", g!"FileType", g!"FileChecksum", g!"LicenseConcluded", g!"LicenseInfoInFile",
    g!"LicenseComments", g!"FileCopyrightText", g!"ArtifactOfProjectName", g!"ArtifactOfProjectHomePage",
    g!"ArtifactOfProjectURI", g!"FileComment", g!"FileNotice", g!"FileContributor", g!"FileDependency",
    -- snippet
    g!"SnippetSPDXID", g!"SnippetFromFileSPDXID", g!"SnippetByteRange", g!"SnippetLineRange",
    g!"SnippetLicenseConcluded", g!"LicenseInfoInSnippet", g!"SnippetLicenseComments",
    g!"SnippetCopyrightText", g!"SnippetComment", g!"SnippetName",
    -- other licensing information
    g!"LicenseID", g!"ExtractedText", g!"LicenseName", g!"LicenseCrossReference", g!"LicenseComment",
    -- relationships, annotations, reviews
    g!"Relationship", g!"RelationshipComment", g!"Annotator", g!"AnnotationDate", g!"AnnotationType",
    g!"SPDXREF", g!"AnnotationComment", g!"Reviewer", g!"ReviewDate", g!"ReviewComment" ] ++
  (if v = .v21 then []
    else [g!"PackageAttributionText", g!"FileAttributionText", g!"SnippetAttributionText"]) ++
  (if v = .v23 then [g!"PrimaryPackagePurpose", g!"ReleaseDate", g!"BuiltDate", g!"ValidUntilDate"] else [])

/-- Tags that open a package, file or snippet section. -/
def opensElement : List Str := [g!"PackageName", g!"FileName", g!"SnippetSPDXID"]

/-- Tags that open an other-licensing or review section. -/
def opensTail : List Str := [g!"LicenseID", g!"Reviewer"]

end Verif.Spec
