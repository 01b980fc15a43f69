import Verif.Model.Types

/-!
# Tag names

The string constants in the `switch tag` statements of `spdx/v2/v2_x/tagvalue/reader/*.go`.  The
model looks a tag string up once; `other` is any string that no section of any version knows.
-/

namespace Verif

/-- The tags named in `spdx/v2/v2_3/tagvalue/reader/{parser,parse_*}.go`. -/
inductive Tag where
  | documentComment
  | spdxVersion
  | dataLicense
  | spdxID
  | documentName
  | documentNamespace
  | externalDocumentRef
  | licenseListVersion
  | creator
  | created
  | creatorComment
  | packageName
  | packageVersion
  | packageFileName
  | packageSupplier
  | packageOriginator
  | packageDownloadLocation
  | filesAnalyzed
  | packageVerificationCode
  | packageChecksum
  | packageHomePage
  | packageSourceInfo
  | packageLicenseConcluded
  | packageLicenseInfoFromFiles
  | packageLicenseDeclared
  | packageLicenseComments
  | packageCopyrightText
  | packageSummary
  | packageDescription
  | packageComment
  | primaryPackagePurpose
  | releaseDate
  | builtDate
  | validUntilDate
  | packageAttributionText
  | externalRef
  | externalRefComment
  | fileName
  | fileType
  | fileChecksum
  | licenseConcluded
  | licenseInfoInFile
  | licenseComments
  | fileCopyrightText
  | artifactOfProjectName
  | artifactOfProjectHomePage
  | artifactOfProjectURI
  | fileComment
  | fileNotice
  | fileContributor
  | fileDependency
  | fileAttributionText
  | snippetSPDXID
  | snippetFromFileSPDXID
  | snippetByteRange
  | snippetLineRange
  | snippetLicenseConcluded
  | licenseInfoInSnippet
  | snippetLicenseComments
  | snippetCopyrightText
  | snippetComment
  | snippetName
  | snippetAttributionText
  | licenseID
  | extractedText
  | licenseName
  | licenseCrossReference
  | licenseComment
  | reviewer
  | reviewDate
  | reviewComment
  | relationship
  | relationshipComment
  | annotator
  | annotationDate
  | annotationType
  | spdxREF
  | annotationComment
  | other
  deriving DecidableEq, Repr

/-- Tag strings and their names, `spdx/v2/v2_3/tagvalue/reader/{parser,parse_*}.go`. -/
def tagTable : List (Str × Tag) := [
  (g!"DocumentComment", .documentComment),
  (g!"SPDXVersion", .spdxVersion),
  (g!"DataLicense", .dataLicense),
  (g!"SPDXID", .spdxID),
  (g!"DocumentName", .documentName),
  (g!"DocumentNamespace", .documentNamespace),
  (g!"ExternalDocumentRef", .externalDocumentRef),
  (g!"LicenseListVersion", .licenseListVersion),
  (g!"Creator", .creator),
  (g!"Created", .created),
  (g!"CreatorComment", .creatorComment),
  (g!"PackageName", .packageName),
  (g!"PackageVersion", .packageVersion),
  (g!"PackageFileName", .packageFileName),
  (g!"PackageSupplier", .packageSupplier),
  (g!"PackageOriginator", .packageOriginator),
  (g!"PackageDownloadLocation", .packageDownloadLocation),
  (g!"FilesAnalyzed", .filesAnalyzed),
  (g!"PackageVerificationCode", .packageVerificationCode),
  (g!"PackageChecksum", .packageChecksum),
  (g!"PackageHomePage", .packageHomePage),
  (g!"PackageSourceInfo", .packageSourceInfo),
  (g!"PackageLicenseConcluded", .packageLicenseConcluded),
  (g!"PackageLicenseInfoFromFiles", .packageLicenseInfoFromFiles),
  (g!"PackageLicenseDeclared", .packageLicenseDeclared),
  (g!"PackageLicenseComments", .packageLicenseComments),
  (g!"PackageCopyrightText", .packageCopyrightText),
  (g!"PackageSummary", .packageSummary),
  (g!"PackageDescription", .packageDescription),
  (g!"PackageComment", .packageComment),
  (g!"PrimaryPackagePurpose", .primaryPackagePurpose),
  (g!"ReleaseDate", .releaseDate),
  (g!"BuiltDate", .builtDate),
  (g!"ValidUntilDate", .validUntilDate),
  (g!"PackageAttributionText", .packageAttributionText),
  (g!"ExternalRef", .externalRef),
  (g!"ExternalRefComment", .externalRefComment),
  (g!"FileName", .fileName),
  (g!"FileType", .fileType),
  (g!"FileChecksum", .fileChecksum),
  (g!"LicenseConcluded", .licenseConcluded),
  (g!"LicenseInfoInFile", .licenseInfoInFile),
  (g!"LicenseComments", .licenseComments),
  (g!"FileCopyrightText", .fileCopyrightText),
  (g!"ArtifactOfProjectName", .artifactOfProjectName),
  (g!"ArtifactOfProjectHomePage", .artifactOfProjectHomePage),
  (g!"ArtifactOfProjectURI", .artifactOfProjectURI),
  (g!"FileComment", .fileComment),
  (g!"FileNotice", .fileNotice),
  (g!"FileContributor", .fileContributor),
  (g!"FileDependency", .fileDependency),
  (g!"FileAttributionText", .fileAttributionText),
  (g!"SnippetSPDXID", .snippetSPDXID),
  (g!"SnippetFromFileSPDXID", .snippetFromFileSPDXID),
  (g!"SnippetByteRange", .snippetByteRange),
  (g!"SnippetLineRange", .snippetLineRange),
  (g!"SnippetLicenseConcluded", .snippetLicenseConcluded),
  (g!"LicenseInfoInSnippet", .licenseInfoInSnippet),
  (g!"SnippetLicenseComments", .snippetLicenseComments),
  (g!"SnippetCopyrightText", .snippetCopyrightText),
  (g!"SnippetComment", .snippetComment),
  (g!"SnippetName", .snippetName),
  (g!"SnippetAttributionText", .snippetAttributionText),
  (g!"LicenseID", .licenseID),
  (g!"ExtractedText", .extractedText),
  (g!"LicenseName", .licenseName),
  (g!"LicenseCrossReference", .licenseCrossReference),
  (g!"LicenseComment", .licenseComment),
  (g!"Reviewer", .reviewer),
  (g!"ReviewDate", .reviewDate),
  (g!"ReviewComment", .reviewComment),
  (g!"Relationship", .relationship),
  (g!"RelationshipComment", .relationshipComment),
  (g!"Annotator", .annotator),
  (g!"AnnotationDate", .annotationDate),
  (g!"AnnotationType", .annotationType),
  (g!"SPDXREF", .spdxREF),
  (g!"AnnotationComment", .annotationComment)]

/-- The tag named by a string. -/
def Tag.ofStr (s : Str) : Tag :=
  match mapGet s tagTable with
  | some t => t
  | none => .other

end Verif
