import Verif.Spec.Sections

/-!
# Specification: the legal tag-value texts

Which tag may stand where, what must come before it, and which values are well-formed; read off the pairs alone.
-/

namespace Verif.Spec

/-- The parts of a text. -/
inductive Place where
  | header | package | file | snippet | license | review
  deriving DecidableEq, Repr

/-- The part a tag opens. -/
def opens (t : Str) : Option Place :=
  if t = g!"PackageName" then some .package
  else if t = g!"FileName" then some .file
  else if t = g!"SnippetSPDXID" then some .snippet
  else if t = g!"LicenseID" then some .license
  else if t = g!"Reviewer" then some .review
  else none

/-- The part of the text behind the pairs `a`: the one opened last. -/
def placeOf (a : List TVPair) : Place := ((a.filterMap fun p => opens p.tag).getLast?).getD .header

/-- The tags of relationships and annotations, which may stand in every part. -/
def sharedTags : List Str := [g!"Relationship", g!"RelationshipComment", g!"Annotator", g!"AnnotationDate",
  g!"AnnotationType", g!"SPDXREF", g!"AnnotationComment"]

/-- The tags about the creation of the document. -/
def creationTags : List Str := [g!"LicenseListVersion", g!"Creator", g!"Created", g!"CreatorComment"]

/-- The tags about a package. -/
def packageTags (v : Version) : List Str := [g!"SPDXID", g!"PackageVersion", g!"PackageFileName", g!"PackageSupplier",
  g!"PackageOriginator", g!"PackageDownloadLocation", g!"FilesAnalyzed", g!"PackageVerificationCode",
  g!"PackageChecksum", g!"PackageHomePage", g!"PackageSourceInfo", g!"PackageLicenseConcluded",
  g!"PackageLicenseInfoFromFiles", g!"PackageLicenseDeclared", g!"PackageLicenseComments", g!"PackageCopyrightText",
  g!"PackageSummary", g!"PackageDescription", g!"PackageComment", g!"ExternalRef", g!"ExternalRefComment"] ++
  (if v = .v21 then [] else [g!"PackageAttributionText"]) ++
  (if v = .v23 then [g!"PrimaryPackagePurpose", g!"ReleaseDate", g!"BuiltDate", g!"ValidUntilDate"] else [])

/-- The tags about a file. -/
def fileTags (v : Version) : List Str := [g!"SPDXID", g!"FileType", g!"FileChecksum", g!"LicenseConcluded",
  g!"LicenseInfoInFile", g!"LicenseComments", g!"FileCopyrightText", g!"ArtifactOfProjectName",
  g!"ArtifactOfProjectHomePage", g!"ArtifactOfProjectURI", g!"FileComment", g!"FileNotice", g!"FileContributor",
  g!"FileDependency"] ++ (if v = .v21 then [] else [g!"FileAttributionText"])

/-- The tags about a snippet. -/
def snippetTags (v : Version) : List Str := [g!"SnippetFromFileSPDXID", g!"SnippetByteRange", g!"SnippetLineRange",
  g!"SnippetLicenseConcluded", g!"LicenseInfoInSnippet", g!"SnippetLicenseComments", g!"SnippetCopyrightText",
  g!"SnippetComment", g!"SnippetName"] ++ (if v = .v21 then [] else [g!"SnippetAttributionText"])

/-- The tags that may stand in a part: those about its subject, those that open another part, and the shared ones. -/
def tagsAt (v : Version) : Place → List Str
  | .header => headTags ++ creationTags ++ [g!"PackageName", g!"FileName", g!"LicenseID", g!"Reviewer"] ++ sharedTags
  | .package => packageTags v ++ [g!"PackageName", g!"FileName", g!"LicenseID", g!"Reviewer"] ++ sharedTags
  | .file => fileTags v ++ [g!"PackageName", g!"FileName", g!"SnippetSPDXID", g!"LicenseID", g!"Reviewer"] ++ sharedTags
  | .snippet =>
    snippetTags v ++ [g!"PackageName", g!"FileName", g!"SnippetSPDXID", g!"LicenseID", g!"Reviewer"] ++ sharedTags
  | .license => [g!"LicenseID", g!"ExtractedText", g!"LicenseName", g!"LicenseCrossReference", g!"LicenseComment",
      g!"Reviewer"] ++ sharedTags
  | .review => [g!"Reviewer", g!"ReviewDate", g!"ReviewComment"] ++ sharedTags

/-- What must come before a tag.  `a` are the pairs before it. -/
structure OrderLegal (v : Version) (a : List TVPair) (t : Str) : Prop where
  /-- In the header, the tags about the document itself come first or directly behind one another, but an external
  document reference, and from version 2.2 on the comment on the document, may stand anywhere. -/
  head : placeOf a = .header → t ∈ headTags →
    t = g!"ExternalDocumentRef" ∨ (v ≠ .v21 ∧ t = g!"DocumentComment") ∨ ∀ q, a.getLast? = some q → q.tag ∈ headTags
  relationship : t = g!"RelationshipComment" → ∃ q ∈ a, q.tag = g!"Relationship"
  annotation : t ∈ [g!"AnnotationDate", g!"AnnotationType", g!"SPDXREF", g!"AnnotationComment"] →
    ∃ q ∈ a, q.tag = g!"Annotator"
  externalRef : t = g!"ExternalRefComment" → ∃ q, a.getLast? = some q ∧ q.tag = g!"ExternalRef"
  artifact : t ∈ [g!"ArtifactOfProjectHomePage", g!"ArtifactOfProjectURI"] →
    ∃ q, a.getLast? = some q ∧ q.tag ∈ [g!"ArtifactOfProjectName", g!"ArtifactOfProjectHomePage", g!"ArtifactOfProjectURI"]

/-- The well-formed values. -/
structure ValueLegal (v : Version) (p : TVPair) : Prop where
  id : p.tag = g!"SPDXID" ∨ p.tag = g!"SnippetSPDXID" → ∃ e, IdReads p.value e
  externalDocument : p.tag = g!"ExternalDocumentRef" → ∃ e, ExternalDocumentSays p.value e
  agent : p.tag = g!"Creator" ∨ p.tag = g!"Annotator" ∨ p.tag = g!"Reviewer" → ∃ k x, AgentText p.value k x
  party : p.tag = g!"PackageSupplier" ∨ p.tag = g!"PackageOriginator" → ∃ k x, PartyReads p.value k x
  checksum : p.tag = g!"PackageChecksum" ∨ p.tag = g!"FileChecksum" → ∃ c, ChecksumReads v p.value c
  externalRef : p.tag = g!"ExternalRef" → (wordsOf p.value).length = 3
  reference : p.tag = g!"SnippetFromFileSPDXID" ∨ p.tag = g!"SPDXREF" → ∃ r, RefReads p.value r
  range : p.tag = g!"SnippetByteRange" ∨ p.tag = g!"SnippetLineRange" → ∃ r, RangeReads p r
  relationship : p.tag = g!"Relationship" → ∃ r, RelationshipSays v (p.value, []) r

/-- The pairs of a section: those up to the next opening. -/
def ownPairs (b : List TVPair) : List TVPair := b.takeWhile fun p => opens p.tag = none

/-- The pair `p` is legal between the pairs `a` and `b`. -/
structure PairLegal (v : Version) (a : List TVPair) (p : TVPair) (b : List TVPair) : Prop where
  tag : p.tag ∈ tagsAt v (placeOf a)
  order : OrderLegal v a p.tag
  value : ValueLegal v p
  /-- A package or file section gives an identifier. -/
  id : p.tag = g!"PackageName" ∨ p.tag = g!"FileName" → ∃ q ∈ ownPairs b, q.tag = g!"SPDXID"

/-- Every pair is legal. -/
def LegalText (v : Version) (tvs : List TVPair) : Prop := ∀ a p b, tvs = a ++ p :: b → PairLegal v a p b

end Verif.Spec
