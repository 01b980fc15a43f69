import Verif.Lemmas.MeaningInv
import Verif.Lemmas.Number
import Verif.Spec.Sections

set_option linter.unusedSimpArgs false

/-!
# The pairs of a section and the fields of its object
-/

namespace Verif
open Spec

/-! ## Tags and their names -/

local macro "tagname" : tactic => `(tactic| exact ofStr_iff (by decide +kernel) (by decide) (by decide +kernel) _)

theorem tag_spdxID (t : Str) : Tag.ofStr t = .spdxID ↔ t = g!"SPDXID" := by tagname
theorem tag_packageName (t : Str) : Tag.ofStr t = .packageName ↔ t = g!"PackageName" := by tagname
theorem tag_packageVersion (t : Str) : Tag.ofStr t = .packageVersion ↔ t = g!"PackageVersion" := by tagname
theorem tag_packageFileName (t : Str) : Tag.ofStr t = .packageFileName ↔ t = g!"PackageFileName" := by tagname
theorem tag_packageSupplier (t : Str) : Tag.ofStr t = .packageSupplier ↔ t = g!"PackageSupplier" := by tagname
theorem tag_packageOriginator (t : Str) : Tag.ofStr t = .packageOriginator ↔ t = g!"PackageOriginator" := by tagname
theorem tag_packageDownloadLocation (t : Str) : Tag.ofStr t = .packageDownloadLocation ↔ t = g!"PackageDownloadLocation" := by tagname
theorem tag_filesAnalyzed (t : Str) : Tag.ofStr t = .filesAnalyzed ↔ t = g!"FilesAnalyzed" := by tagname
theorem tag_packageVerificationCode (t : Str) : Tag.ofStr t = .packageVerificationCode ↔ t = g!"PackageVerificationCode" := by tagname
theorem tag_packageChecksum (t : Str) : Tag.ofStr t = .packageChecksum ↔ t = g!"PackageChecksum" := by tagname
theorem tag_packageHomePage (t : Str) : Tag.ofStr t = .packageHomePage ↔ t = g!"PackageHomePage" := by tagname
theorem tag_packageSourceInfo (t : Str) : Tag.ofStr t = .packageSourceInfo ↔ t = g!"PackageSourceInfo" := by tagname
theorem tag_packageLicenseConcluded (t : Str) : Tag.ofStr t = .packageLicenseConcluded ↔ t = g!"PackageLicenseConcluded" := by tagname
theorem tag_packageLicenseInfoFromFiles (t : Str) : Tag.ofStr t = .packageLicenseInfoFromFiles ↔ t = g!"PackageLicenseInfoFromFiles" := by tagname
theorem tag_packageLicenseDeclared (t : Str) : Tag.ofStr t = .packageLicenseDeclared ↔ t = g!"PackageLicenseDeclared" := by tagname
theorem tag_packageLicenseComments (t : Str) : Tag.ofStr t = .packageLicenseComments ↔ t = g!"PackageLicenseComments" := by tagname
theorem tag_packageCopyrightText (t : Str) : Tag.ofStr t = .packageCopyrightText ↔ t = g!"PackageCopyrightText" := by tagname
theorem tag_packageSummary (t : Str) : Tag.ofStr t = .packageSummary ↔ t = g!"PackageSummary" := by tagname
theorem tag_packageDescription (t : Str) : Tag.ofStr t = .packageDescription ↔ t = g!"PackageDescription" := by tagname
theorem tag_packageComment (t : Str) : Tag.ofStr t = .packageComment ↔ t = g!"PackageComment" := by tagname
theorem tag_primaryPackagePurpose (t : Str) : Tag.ofStr t = .primaryPackagePurpose ↔ t = g!"PrimaryPackagePurpose" := by tagname
theorem tag_releaseDate (t : Str) : Tag.ofStr t = .releaseDate ↔ t = g!"ReleaseDate" := by tagname
theorem tag_builtDate (t : Str) : Tag.ofStr t = .builtDate ↔ t = g!"BuiltDate" := by tagname
theorem tag_validUntilDate (t : Str) : Tag.ofStr t = .validUntilDate ↔ t = g!"ValidUntilDate" := by tagname
theorem tag_packageAttributionText (t : Str) : Tag.ofStr t = .packageAttributionText ↔ t = g!"PackageAttributionText" := by tagname
theorem tag_externalRef (t : Str) : Tag.ofStr t = .externalRef ↔ t = g!"ExternalRef" := by tagname
theorem tag_externalRefComment (t : Str) : Tag.ofStr t = .externalRefComment ↔ t = g!"ExternalRefComment" := by tagname
theorem tag_fileName (t : Str) : Tag.ofStr t = .fileName ↔ t = g!"FileName" := by tagname
theorem tag_fileType (t : Str) : Tag.ofStr t = .fileType ↔ t = g!"FileType" := by tagname
theorem tag_fileChecksum (t : Str) : Tag.ofStr t = .fileChecksum ↔ t = g!"FileChecksum" := by tagname
theorem tag_licenseConcluded (t : Str) : Tag.ofStr t = .licenseConcluded ↔ t = g!"LicenseConcluded" := by tagname
theorem tag_licenseInfoInFile (t : Str) : Tag.ofStr t = .licenseInfoInFile ↔ t = g!"LicenseInfoInFile" := by tagname
theorem tag_licenseComments (t : Str) : Tag.ofStr t = .licenseComments ↔ t = g!"LicenseComments" := by tagname
theorem tag_fileCopyrightText (t : Str) : Tag.ofStr t = .fileCopyrightText ↔ t = g!"FileCopyrightText" := by tagname
theorem tag_artifactOfProjectName (t : Str) : Tag.ofStr t = .artifactOfProjectName ↔ t = g!"ArtifactOfProjectName" := by tagname
theorem tag_artifactOfProjectHomePage (t : Str) : Tag.ofStr t = .artifactOfProjectHomePage ↔ t = g!"ArtifactOfProjectHomePage" := by tagname
theorem tag_artifactOfProjectURI (t : Str) : Tag.ofStr t = .artifactOfProjectURI ↔ t = g!"ArtifactOfProjectURI" := by tagname
theorem tag_fileComment (t : Str) : Tag.ofStr t = .fileComment ↔ t = g!"FileComment" := by tagname
theorem tag_fileNotice (t : Str) : Tag.ofStr t = .fileNotice ↔ t = g!"FileNotice" := by tagname
theorem tag_fileContributor (t : Str) : Tag.ofStr t = .fileContributor ↔ t = g!"FileContributor" := by tagname
theorem tag_fileDependency (t : Str) : Tag.ofStr t = .fileDependency ↔ t = g!"FileDependency" := by tagname
theorem tag_fileAttributionText (t : Str) : Tag.ofStr t = .fileAttributionText ↔ t = g!"FileAttributionText" := by tagname
theorem tag_snippetSPDXID (t : Str) : Tag.ofStr t = .snippetSPDXID ↔ t = g!"SnippetSPDXID" := by tagname
theorem tag_snippetFromFileSPDXID (t : Str) : Tag.ofStr t = .snippetFromFileSPDXID ↔ t = g!"SnippetFromFileSPDXID" := by tagname
theorem tag_snippetByteRange (t : Str) : Tag.ofStr t = .snippetByteRange ↔ t = g!"SnippetByteRange" := by tagname
theorem tag_snippetLineRange (t : Str) : Tag.ofStr t = .snippetLineRange ↔ t = g!"SnippetLineRange" := by tagname
theorem tag_snippetLicenseConcluded (t : Str) : Tag.ofStr t = .snippetLicenseConcluded ↔ t = g!"SnippetLicenseConcluded" := by tagname
theorem tag_licenseInfoInSnippet (t : Str) : Tag.ofStr t = .licenseInfoInSnippet ↔ t = g!"LicenseInfoInSnippet" := by tagname
theorem tag_snippetLicenseComments (t : Str) : Tag.ofStr t = .snippetLicenseComments ↔ t = g!"SnippetLicenseComments" := by tagname
theorem tag_snippetCopyrightText (t : Str) : Tag.ofStr t = .snippetCopyrightText ↔ t = g!"SnippetCopyrightText" := by tagname
theorem tag_snippetComment (t : Str) : Tag.ofStr t = .snippetComment ↔ t = g!"SnippetComment" := by tagname
theorem tag_snippetName (t : Str) : Tag.ofStr t = .snippetName ↔ t = g!"SnippetName" := by tagname
theorem tag_snippetAttributionText (t : Str) : Tag.ofStr t = .snippetAttributionText ↔ t = g!"SnippetAttributionText" := by tagname

theorem values_artifactOfProjectHomePage (ps : List TVPair) (q : TVPair) : values g!"ArtifactOfProjectHomePage" (ps ++ [q]) =
    values g!"ArtifactOfProjectHomePage" ps ++ (if Tag.ofStr q.tag = .artifactOfProjectHomePage then [q.value] else []) := by
  rw [values_snoc]; simp only [tag_artifactOfProjectHomePage]
theorem last_artifactOfProjectHomePage (ps : List TVPair) (q : TVPair) : lastValue g!"ArtifactOfProjectHomePage" (ps ++ [q]) =
    if Tag.ofStr q.tag = .artifactOfProjectHomePage then q.value else lastValue g!"ArtifactOfProjectHomePage" ps := by
  rw [lastValue_snoc]; simp only [tag_artifactOfProjectHomePage]
theorem values_artifactOfProjectName (ps : List TVPair) (q : TVPair) : values g!"ArtifactOfProjectName" (ps ++ [q]) =
    values g!"ArtifactOfProjectName" ps ++ (if Tag.ofStr q.tag = .artifactOfProjectName then [q.value] else []) := by
  rw [values_snoc]; simp only [tag_artifactOfProjectName]
theorem last_artifactOfProjectName (ps : List TVPair) (q : TVPair) : lastValue g!"ArtifactOfProjectName" (ps ++ [q]) =
    if Tag.ofStr q.tag = .artifactOfProjectName then q.value else lastValue g!"ArtifactOfProjectName" ps := by
  rw [lastValue_snoc]; simp only [tag_artifactOfProjectName]
theorem values_artifactOfProjectURI (ps : List TVPair) (q : TVPair) : values g!"ArtifactOfProjectURI" (ps ++ [q]) =
    values g!"ArtifactOfProjectURI" ps ++ (if Tag.ofStr q.tag = .artifactOfProjectURI then [q.value] else []) := by
  rw [values_snoc]; simp only [tag_artifactOfProjectURI]
theorem last_artifactOfProjectURI (ps : List TVPair) (q : TVPair) : lastValue g!"ArtifactOfProjectURI" (ps ++ [q]) =
    if Tag.ofStr q.tag = .artifactOfProjectURI then q.value else lastValue g!"ArtifactOfProjectURI" ps := by
  rw [lastValue_snoc]; simp only [tag_artifactOfProjectURI]
theorem values_builtDate (ps : List TVPair) (q : TVPair) : values g!"BuiltDate" (ps ++ [q]) =
    values g!"BuiltDate" ps ++ (if Tag.ofStr q.tag = .builtDate then [q.value] else []) := by
  rw [values_snoc]; simp only [tag_builtDate]
theorem last_builtDate (ps : List TVPair) (q : TVPair) : lastValue g!"BuiltDate" (ps ++ [q]) =
    if Tag.ofStr q.tag = .builtDate then q.value else lastValue g!"BuiltDate" ps := by
  rw [lastValue_snoc]; simp only [tag_builtDate]
theorem values_externalRef (ps : List TVPair) (q : TVPair) : values g!"ExternalRef" (ps ++ [q]) =
    values g!"ExternalRef" ps ++ (if Tag.ofStr q.tag = .externalRef then [q.value] else []) := by
  rw [values_snoc]; simp only [tag_externalRef]
theorem last_externalRef (ps : List TVPair) (q : TVPair) : lastValue g!"ExternalRef" (ps ++ [q]) =
    if Tag.ofStr q.tag = .externalRef then q.value else lastValue g!"ExternalRef" ps := by
  rw [lastValue_snoc]; simp only [tag_externalRef]
theorem values_externalRefComment (ps : List TVPair) (q : TVPair) : values g!"ExternalRefComment" (ps ++ [q]) =
    values g!"ExternalRefComment" ps ++ (if Tag.ofStr q.tag = .externalRefComment then [q.value] else []) := by
  rw [values_snoc]; simp only [tag_externalRefComment]
theorem last_externalRefComment (ps : List TVPair) (q : TVPair) : lastValue g!"ExternalRefComment" (ps ++ [q]) =
    if Tag.ofStr q.tag = .externalRefComment then q.value else lastValue g!"ExternalRefComment" ps := by
  rw [lastValue_snoc]; simp only [tag_externalRefComment]
theorem values_fileAttributionText (ps : List TVPair) (q : TVPair) : values g!"FileAttributionText" (ps ++ [q]) =
    values g!"FileAttributionText" ps ++ (if Tag.ofStr q.tag = .fileAttributionText then [q.value] else []) := by
  rw [values_snoc]; simp only [tag_fileAttributionText]
theorem last_fileAttributionText (ps : List TVPair) (q : TVPair) : lastValue g!"FileAttributionText" (ps ++ [q]) =
    if Tag.ofStr q.tag = .fileAttributionText then q.value else lastValue g!"FileAttributionText" ps := by
  rw [lastValue_snoc]; simp only [tag_fileAttributionText]
theorem values_fileChecksum (ps : List TVPair) (q : TVPair) : values g!"FileChecksum" (ps ++ [q]) =
    values g!"FileChecksum" ps ++ (if Tag.ofStr q.tag = .fileChecksum then [q.value] else []) := by
  rw [values_snoc]; simp only [tag_fileChecksum]
theorem last_fileChecksum (ps : List TVPair) (q : TVPair) : lastValue g!"FileChecksum" (ps ++ [q]) =
    if Tag.ofStr q.tag = .fileChecksum then q.value else lastValue g!"FileChecksum" ps := by
  rw [lastValue_snoc]; simp only [tag_fileChecksum]
theorem values_fileComment (ps : List TVPair) (q : TVPair) : values g!"FileComment" (ps ++ [q]) =
    values g!"FileComment" ps ++ (if Tag.ofStr q.tag = .fileComment then [q.value] else []) := by
  rw [values_snoc]; simp only [tag_fileComment]
theorem last_fileComment (ps : List TVPair) (q : TVPair) : lastValue g!"FileComment" (ps ++ [q]) =
    if Tag.ofStr q.tag = .fileComment then q.value else lastValue g!"FileComment" ps := by
  rw [lastValue_snoc]; simp only [tag_fileComment]
theorem values_fileContributor (ps : List TVPair) (q : TVPair) : values g!"FileContributor" (ps ++ [q]) =
    values g!"FileContributor" ps ++ (if Tag.ofStr q.tag = .fileContributor then [q.value] else []) := by
  rw [values_snoc]; simp only [tag_fileContributor]
theorem last_fileContributor (ps : List TVPair) (q : TVPair) : lastValue g!"FileContributor" (ps ++ [q]) =
    if Tag.ofStr q.tag = .fileContributor then q.value else lastValue g!"FileContributor" ps := by
  rw [lastValue_snoc]; simp only [tag_fileContributor]
theorem values_fileCopyrightText (ps : List TVPair) (q : TVPair) : values g!"FileCopyrightText" (ps ++ [q]) =
    values g!"FileCopyrightText" ps ++ (if Tag.ofStr q.tag = .fileCopyrightText then [q.value] else []) := by
  rw [values_snoc]; simp only [tag_fileCopyrightText]
theorem last_fileCopyrightText (ps : List TVPair) (q : TVPair) : lastValue g!"FileCopyrightText" (ps ++ [q]) =
    if Tag.ofStr q.tag = .fileCopyrightText then q.value else lastValue g!"FileCopyrightText" ps := by
  rw [lastValue_snoc]; simp only [tag_fileCopyrightText]
theorem values_fileDependency (ps : List TVPair) (q : TVPair) : values g!"FileDependency" (ps ++ [q]) =
    values g!"FileDependency" ps ++ (if Tag.ofStr q.tag = .fileDependency then [q.value] else []) := by
  rw [values_snoc]; simp only [tag_fileDependency]
theorem last_fileDependency (ps : List TVPair) (q : TVPair) : lastValue g!"FileDependency" (ps ++ [q]) =
    if Tag.ofStr q.tag = .fileDependency then q.value else lastValue g!"FileDependency" ps := by
  rw [lastValue_snoc]; simp only [tag_fileDependency]
theorem values_fileNotice (ps : List TVPair) (q : TVPair) : values g!"FileNotice" (ps ++ [q]) =
    values g!"FileNotice" ps ++ (if Tag.ofStr q.tag = .fileNotice then [q.value] else []) := by
  rw [values_snoc]; simp only [tag_fileNotice]
theorem last_fileNotice (ps : List TVPair) (q : TVPair) : lastValue g!"FileNotice" (ps ++ [q]) =
    if Tag.ofStr q.tag = .fileNotice then q.value else lastValue g!"FileNotice" ps := by
  rw [lastValue_snoc]; simp only [tag_fileNotice]
theorem values_fileType (ps : List TVPair) (q : TVPair) : values g!"FileType" (ps ++ [q]) =
    values g!"FileType" ps ++ (if Tag.ofStr q.tag = .fileType then [q.value] else []) := by
  rw [values_snoc]; simp only [tag_fileType]
theorem last_fileType (ps : List TVPair) (q : TVPair) : lastValue g!"FileType" (ps ++ [q]) =
    if Tag.ofStr q.tag = .fileType then q.value else lastValue g!"FileType" ps := by
  rw [lastValue_snoc]; simp only [tag_fileType]
theorem values_filesAnalyzed (ps : List TVPair) (q : TVPair) : values g!"FilesAnalyzed" (ps ++ [q]) =
    values g!"FilesAnalyzed" ps ++ (if Tag.ofStr q.tag = .filesAnalyzed then [q.value] else []) := by
  rw [values_snoc]; simp only [tag_filesAnalyzed]
theorem last_filesAnalyzed (ps : List TVPair) (q : TVPair) : lastValue g!"FilesAnalyzed" (ps ++ [q]) =
    if Tag.ofStr q.tag = .filesAnalyzed then q.value else lastValue g!"FilesAnalyzed" ps := by
  rw [lastValue_snoc]; simp only [tag_filesAnalyzed]
theorem values_licenseComments (ps : List TVPair) (q : TVPair) : values g!"LicenseComments" (ps ++ [q]) =
    values g!"LicenseComments" ps ++ (if Tag.ofStr q.tag = .licenseComments then [q.value] else []) := by
  rw [values_snoc]; simp only [tag_licenseComments]
theorem last_licenseComments (ps : List TVPair) (q : TVPair) : lastValue g!"LicenseComments" (ps ++ [q]) =
    if Tag.ofStr q.tag = .licenseComments then q.value else lastValue g!"LicenseComments" ps := by
  rw [lastValue_snoc]; simp only [tag_licenseComments]
theorem values_licenseConcluded (ps : List TVPair) (q : TVPair) : values g!"LicenseConcluded" (ps ++ [q]) =
    values g!"LicenseConcluded" ps ++ (if Tag.ofStr q.tag = .licenseConcluded then [q.value] else []) := by
  rw [values_snoc]; simp only [tag_licenseConcluded]
theorem last_licenseConcluded (ps : List TVPair) (q : TVPair) : lastValue g!"LicenseConcluded" (ps ++ [q]) =
    if Tag.ofStr q.tag = .licenseConcluded then q.value else lastValue g!"LicenseConcluded" ps := by
  rw [lastValue_snoc]; simp only [tag_licenseConcluded]
theorem values_licenseInfoInFile (ps : List TVPair) (q : TVPair) : values g!"LicenseInfoInFile" (ps ++ [q]) =
    values g!"LicenseInfoInFile" ps ++ (if Tag.ofStr q.tag = .licenseInfoInFile then [q.value] else []) := by
  rw [values_snoc]; simp only [tag_licenseInfoInFile]
theorem last_licenseInfoInFile (ps : List TVPair) (q : TVPair) : lastValue g!"LicenseInfoInFile" (ps ++ [q]) =
    if Tag.ofStr q.tag = .licenseInfoInFile then q.value else lastValue g!"LicenseInfoInFile" ps := by
  rw [lastValue_snoc]; simp only [tag_licenseInfoInFile]
theorem values_licenseInfoInSnippet (ps : List TVPair) (q : TVPair) : values g!"LicenseInfoInSnippet" (ps ++ [q]) =
    values g!"LicenseInfoInSnippet" ps ++ (if Tag.ofStr q.tag = .licenseInfoInSnippet then [q.value] else []) := by
  rw [values_snoc]; simp only [tag_licenseInfoInSnippet]
theorem last_licenseInfoInSnippet (ps : List TVPair) (q : TVPair) : lastValue g!"LicenseInfoInSnippet" (ps ++ [q]) =
    if Tag.ofStr q.tag = .licenseInfoInSnippet then q.value else lastValue g!"LicenseInfoInSnippet" ps := by
  rw [lastValue_snoc]; simp only [tag_licenseInfoInSnippet]
theorem values_packageAttributionText (ps : List TVPair) (q : TVPair) : values g!"PackageAttributionText" (ps ++ [q]) =
    values g!"PackageAttributionText" ps ++ (if Tag.ofStr q.tag = .packageAttributionText then [q.value] else []) := by
  rw [values_snoc]; simp only [tag_packageAttributionText]
theorem last_packageAttributionText (ps : List TVPair) (q : TVPair) : lastValue g!"PackageAttributionText" (ps ++ [q]) =
    if Tag.ofStr q.tag = .packageAttributionText then q.value else lastValue g!"PackageAttributionText" ps := by
  rw [lastValue_snoc]; simp only [tag_packageAttributionText]
theorem values_packageChecksum (ps : List TVPair) (q : TVPair) : values g!"PackageChecksum" (ps ++ [q]) =
    values g!"PackageChecksum" ps ++ (if Tag.ofStr q.tag = .packageChecksum then [q.value] else []) := by
  rw [values_snoc]; simp only [tag_packageChecksum]
theorem last_packageChecksum (ps : List TVPair) (q : TVPair) : lastValue g!"PackageChecksum" (ps ++ [q]) =
    if Tag.ofStr q.tag = .packageChecksum then q.value else lastValue g!"PackageChecksum" ps := by
  rw [lastValue_snoc]; simp only [tag_packageChecksum]
theorem values_packageComment (ps : List TVPair) (q : TVPair) : values g!"PackageComment" (ps ++ [q]) =
    values g!"PackageComment" ps ++ (if Tag.ofStr q.tag = .packageComment then [q.value] else []) := by
  rw [values_snoc]; simp only [tag_packageComment]
theorem last_packageComment (ps : List TVPair) (q : TVPair) : lastValue g!"PackageComment" (ps ++ [q]) =
    if Tag.ofStr q.tag = .packageComment then q.value else lastValue g!"PackageComment" ps := by
  rw [lastValue_snoc]; simp only [tag_packageComment]
theorem values_packageCopyrightText (ps : List TVPair) (q : TVPair) : values g!"PackageCopyrightText" (ps ++ [q]) =
    values g!"PackageCopyrightText" ps ++ (if Tag.ofStr q.tag = .packageCopyrightText then [q.value] else []) := by
  rw [values_snoc]; simp only [tag_packageCopyrightText]
theorem last_packageCopyrightText (ps : List TVPair) (q : TVPair) : lastValue g!"PackageCopyrightText" (ps ++ [q]) =
    if Tag.ofStr q.tag = .packageCopyrightText then q.value else lastValue g!"PackageCopyrightText" ps := by
  rw [lastValue_snoc]; simp only [tag_packageCopyrightText]
theorem values_packageDescription (ps : List TVPair) (q : TVPair) : values g!"PackageDescription" (ps ++ [q]) =
    values g!"PackageDescription" ps ++ (if Tag.ofStr q.tag = .packageDescription then [q.value] else []) := by
  rw [values_snoc]; simp only [tag_packageDescription]
theorem last_packageDescription (ps : List TVPair) (q : TVPair) : lastValue g!"PackageDescription" (ps ++ [q]) =
    if Tag.ofStr q.tag = .packageDescription then q.value else lastValue g!"PackageDescription" ps := by
  rw [lastValue_snoc]; simp only [tag_packageDescription]
theorem values_packageDownloadLocation (ps : List TVPair) (q : TVPair) : values g!"PackageDownloadLocation" (ps ++ [q]) =
    values g!"PackageDownloadLocation" ps ++ (if Tag.ofStr q.tag = .packageDownloadLocation then [q.value] else []) := by
  rw [values_snoc]; simp only [tag_packageDownloadLocation]
theorem last_packageDownloadLocation (ps : List TVPair) (q : TVPair) : lastValue g!"PackageDownloadLocation" (ps ++ [q]) =
    if Tag.ofStr q.tag = .packageDownloadLocation then q.value else lastValue g!"PackageDownloadLocation" ps := by
  rw [lastValue_snoc]; simp only [tag_packageDownloadLocation]
theorem values_packageFileName (ps : List TVPair) (q : TVPair) : values g!"PackageFileName" (ps ++ [q]) =
    values g!"PackageFileName" ps ++ (if Tag.ofStr q.tag = .packageFileName then [q.value] else []) := by
  rw [values_snoc]; simp only [tag_packageFileName]
theorem last_packageFileName (ps : List TVPair) (q : TVPair) : lastValue g!"PackageFileName" (ps ++ [q]) =
    if Tag.ofStr q.tag = .packageFileName then q.value else lastValue g!"PackageFileName" ps := by
  rw [lastValue_snoc]; simp only [tag_packageFileName]
theorem values_packageHomePage (ps : List TVPair) (q : TVPair) : values g!"PackageHomePage" (ps ++ [q]) =
    values g!"PackageHomePage" ps ++ (if Tag.ofStr q.tag = .packageHomePage then [q.value] else []) := by
  rw [values_snoc]; simp only [tag_packageHomePage]
theorem last_packageHomePage (ps : List TVPair) (q : TVPair) : lastValue g!"PackageHomePage" (ps ++ [q]) =
    if Tag.ofStr q.tag = .packageHomePage then q.value else lastValue g!"PackageHomePage" ps := by
  rw [lastValue_snoc]; simp only [tag_packageHomePage]
theorem values_packageLicenseComments (ps : List TVPair) (q : TVPair) : values g!"PackageLicenseComments" (ps ++ [q]) =
    values g!"PackageLicenseComments" ps ++ (if Tag.ofStr q.tag = .packageLicenseComments then [q.value] else []) := by
  rw [values_snoc]; simp only [tag_packageLicenseComments]
theorem last_packageLicenseComments (ps : List TVPair) (q : TVPair) : lastValue g!"PackageLicenseComments" (ps ++ [q]) =
    if Tag.ofStr q.tag = .packageLicenseComments then q.value else lastValue g!"PackageLicenseComments" ps := by
  rw [lastValue_snoc]; simp only [tag_packageLicenseComments]
theorem values_packageLicenseConcluded (ps : List TVPair) (q : TVPair) : values g!"PackageLicenseConcluded" (ps ++ [q]) =
    values g!"PackageLicenseConcluded" ps ++ (if Tag.ofStr q.tag = .packageLicenseConcluded then [q.value] else []) := by
  rw [values_snoc]; simp only [tag_packageLicenseConcluded]
theorem last_packageLicenseConcluded (ps : List TVPair) (q : TVPair) : lastValue g!"PackageLicenseConcluded" (ps ++ [q]) =
    if Tag.ofStr q.tag = .packageLicenseConcluded then q.value else lastValue g!"PackageLicenseConcluded" ps := by
  rw [lastValue_snoc]; simp only [tag_packageLicenseConcluded]
theorem values_packageLicenseDeclared (ps : List TVPair) (q : TVPair) : values g!"PackageLicenseDeclared" (ps ++ [q]) =
    values g!"PackageLicenseDeclared" ps ++ (if Tag.ofStr q.tag = .packageLicenseDeclared then [q.value] else []) := by
  rw [values_snoc]; simp only [tag_packageLicenseDeclared]
theorem last_packageLicenseDeclared (ps : List TVPair) (q : TVPair) : lastValue g!"PackageLicenseDeclared" (ps ++ [q]) =
    if Tag.ofStr q.tag = .packageLicenseDeclared then q.value else lastValue g!"PackageLicenseDeclared" ps := by
  rw [lastValue_snoc]; simp only [tag_packageLicenseDeclared]
theorem values_packageLicenseInfoFromFiles (ps : List TVPair) (q : TVPair) : values g!"PackageLicenseInfoFromFiles" (ps ++ [q]) =
    values g!"PackageLicenseInfoFromFiles" ps ++ (if Tag.ofStr q.tag = .packageLicenseInfoFromFiles then [q.value] else []) := by
  rw [values_snoc]; simp only [tag_packageLicenseInfoFromFiles]
theorem last_packageLicenseInfoFromFiles (ps : List TVPair) (q : TVPair) : lastValue g!"PackageLicenseInfoFromFiles" (ps ++ [q]) =
    if Tag.ofStr q.tag = .packageLicenseInfoFromFiles then q.value else lastValue g!"PackageLicenseInfoFromFiles" ps := by
  rw [lastValue_snoc]; simp only [tag_packageLicenseInfoFromFiles]
theorem values_packageOriginator (ps : List TVPair) (q : TVPair) : values g!"PackageOriginator" (ps ++ [q]) =
    values g!"PackageOriginator" ps ++ (if Tag.ofStr q.tag = .packageOriginator then [q.value] else []) := by
  rw [values_snoc]; simp only [tag_packageOriginator]
theorem last_packageOriginator (ps : List TVPair) (q : TVPair) : lastValue g!"PackageOriginator" (ps ++ [q]) =
    if Tag.ofStr q.tag = .packageOriginator then q.value else lastValue g!"PackageOriginator" ps := by
  rw [lastValue_snoc]; simp only [tag_packageOriginator]
theorem values_packageSourceInfo (ps : List TVPair) (q : TVPair) : values g!"PackageSourceInfo" (ps ++ [q]) =
    values g!"PackageSourceInfo" ps ++ (if Tag.ofStr q.tag = .packageSourceInfo then [q.value] else []) := by
  rw [values_snoc]; simp only [tag_packageSourceInfo]
theorem last_packageSourceInfo (ps : List TVPair) (q : TVPair) : lastValue g!"PackageSourceInfo" (ps ++ [q]) =
    if Tag.ofStr q.tag = .packageSourceInfo then q.value else lastValue g!"PackageSourceInfo" ps := by
  rw [lastValue_snoc]; simp only [tag_packageSourceInfo]
theorem values_packageSummary (ps : List TVPair) (q : TVPair) : values g!"PackageSummary" (ps ++ [q]) =
    values g!"PackageSummary" ps ++ (if Tag.ofStr q.tag = .packageSummary then [q.value] else []) := by
  rw [values_snoc]; simp only [tag_packageSummary]
theorem last_packageSummary (ps : List TVPair) (q : TVPair) : lastValue g!"PackageSummary" (ps ++ [q]) =
    if Tag.ofStr q.tag = .packageSummary then q.value else lastValue g!"PackageSummary" ps := by
  rw [lastValue_snoc]; simp only [tag_packageSummary]
theorem values_packageSupplier (ps : List TVPair) (q : TVPair) : values g!"PackageSupplier" (ps ++ [q]) =
    values g!"PackageSupplier" ps ++ (if Tag.ofStr q.tag = .packageSupplier then [q.value] else []) := by
  rw [values_snoc]; simp only [tag_packageSupplier]
theorem last_packageSupplier (ps : List TVPair) (q : TVPair) : lastValue g!"PackageSupplier" (ps ++ [q]) =
    if Tag.ofStr q.tag = .packageSupplier then q.value else lastValue g!"PackageSupplier" ps := by
  rw [lastValue_snoc]; simp only [tag_packageSupplier]
theorem values_packageVerificationCode (ps : List TVPair) (q : TVPair) : values g!"PackageVerificationCode" (ps ++ [q]) =
    values g!"PackageVerificationCode" ps ++ (if Tag.ofStr q.tag = .packageVerificationCode then [q.value] else []) := by
  rw [values_snoc]; simp only [tag_packageVerificationCode]
theorem last_packageVerificationCode (ps : List TVPair) (q : TVPair) : lastValue g!"PackageVerificationCode" (ps ++ [q]) =
    if Tag.ofStr q.tag = .packageVerificationCode then q.value else lastValue g!"PackageVerificationCode" ps := by
  rw [lastValue_snoc]; simp only [tag_packageVerificationCode]
theorem values_packageVersion (ps : List TVPair) (q : TVPair) : values g!"PackageVersion" (ps ++ [q]) =
    values g!"PackageVersion" ps ++ (if Tag.ofStr q.tag = .packageVersion then [q.value] else []) := by
  rw [values_snoc]; simp only [tag_packageVersion]
theorem last_packageVersion (ps : List TVPair) (q : TVPair) : lastValue g!"PackageVersion" (ps ++ [q]) =
    if Tag.ofStr q.tag = .packageVersion then q.value else lastValue g!"PackageVersion" ps := by
  rw [lastValue_snoc]; simp only [tag_packageVersion]
theorem values_primaryPackagePurpose (ps : List TVPair) (q : TVPair) : values g!"PrimaryPackagePurpose" (ps ++ [q]) =
    values g!"PrimaryPackagePurpose" ps ++ (if Tag.ofStr q.tag = .primaryPackagePurpose then [q.value] else []) := by
  rw [values_snoc]; simp only [tag_primaryPackagePurpose]
theorem last_primaryPackagePurpose (ps : List TVPair) (q : TVPair) : lastValue g!"PrimaryPackagePurpose" (ps ++ [q]) =
    if Tag.ofStr q.tag = .primaryPackagePurpose then q.value else lastValue g!"PrimaryPackagePurpose" ps := by
  rw [lastValue_snoc]; simp only [tag_primaryPackagePurpose]
theorem values_releaseDate (ps : List TVPair) (q : TVPair) : values g!"ReleaseDate" (ps ++ [q]) =
    values g!"ReleaseDate" ps ++ (if Tag.ofStr q.tag = .releaseDate then [q.value] else []) := by
  rw [values_snoc]; simp only [tag_releaseDate]
theorem last_releaseDate (ps : List TVPair) (q : TVPair) : lastValue g!"ReleaseDate" (ps ++ [q]) =
    if Tag.ofStr q.tag = .releaseDate then q.value else lastValue g!"ReleaseDate" ps := by
  rw [lastValue_snoc]; simp only [tag_releaseDate]
theorem values_spdxID (ps : List TVPair) (q : TVPair) : values g!"SPDXID" (ps ++ [q]) =
    values g!"SPDXID" ps ++ (if Tag.ofStr q.tag = .spdxID then [q.value] else []) := by
  rw [values_snoc]; simp only [tag_spdxID]
theorem last_spdxID (ps : List TVPair) (q : TVPair) : lastValue g!"SPDXID" (ps ++ [q]) =
    if Tag.ofStr q.tag = .spdxID then q.value else lastValue g!"SPDXID" ps := by
  rw [lastValue_snoc]; simp only [tag_spdxID]
theorem values_snippetAttributionText (ps : List TVPair) (q : TVPair) : values g!"SnippetAttributionText" (ps ++ [q]) =
    values g!"SnippetAttributionText" ps ++ (if Tag.ofStr q.tag = .snippetAttributionText then [q.value] else []) := by
  rw [values_snoc]; simp only [tag_snippetAttributionText]
theorem last_snippetAttributionText (ps : List TVPair) (q : TVPair) : lastValue g!"SnippetAttributionText" (ps ++ [q]) =
    if Tag.ofStr q.tag = .snippetAttributionText then q.value else lastValue g!"SnippetAttributionText" ps := by
  rw [lastValue_snoc]; simp only [tag_snippetAttributionText]
theorem values_snippetComment (ps : List TVPair) (q : TVPair) : values g!"SnippetComment" (ps ++ [q]) =
    values g!"SnippetComment" ps ++ (if Tag.ofStr q.tag = .snippetComment then [q.value] else []) := by
  rw [values_snoc]; simp only [tag_snippetComment]
theorem last_snippetComment (ps : List TVPair) (q : TVPair) : lastValue g!"SnippetComment" (ps ++ [q]) =
    if Tag.ofStr q.tag = .snippetComment then q.value else lastValue g!"SnippetComment" ps := by
  rw [lastValue_snoc]; simp only [tag_snippetComment]
theorem values_snippetCopyrightText (ps : List TVPair) (q : TVPair) : values g!"SnippetCopyrightText" (ps ++ [q]) =
    values g!"SnippetCopyrightText" ps ++ (if Tag.ofStr q.tag = .snippetCopyrightText then [q.value] else []) := by
  rw [values_snoc]; simp only [tag_snippetCopyrightText]
theorem last_snippetCopyrightText (ps : List TVPair) (q : TVPair) : lastValue g!"SnippetCopyrightText" (ps ++ [q]) =
    if Tag.ofStr q.tag = .snippetCopyrightText then q.value else lastValue g!"SnippetCopyrightText" ps := by
  rw [lastValue_snoc]; simp only [tag_snippetCopyrightText]
theorem values_snippetFromFileSPDXID (ps : List TVPair) (q : TVPair) : values g!"SnippetFromFileSPDXID" (ps ++ [q]) =
    values g!"SnippetFromFileSPDXID" ps ++ (if Tag.ofStr q.tag = .snippetFromFileSPDXID then [q.value] else []) := by
  rw [values_snoc]; simp only [tag_snippetFromFileSPDXID]
theorem last_snippetFromFileSPDXID (ps : List TVPair) (q : TVPair) : lastValue g!"SnippetFromFileSPDXID" (ps ++ [q]) =
    if Tag.ofStr q.tag = .snippetFromFileSPDXID then q.value else lastValue g!"SnippetFromFileSPDXID" ps := by
  rw [lastValue_snoc]; simp only [tag_snippetFromFileSPDXID]
theorem values_snippetLicenseComments (ps : List TVPair) (q : TVPair) : values g!"SnippetLicenseComments" (ps ++ [q]) =
    values g!"SnippetLicenseComments" ps ++ (if Tag.ofStr q.tag = .snippetLicenseComments then [q.value] else []) := by
  rw [values_snoc]; simp only [tag_snippetLicenseComments]
theorem last_snippetLicenseComments (ps : List TVPair) (q : TVPair) : lastValue g!"SnippetLicenseComments" (ps ++ [q]) =
    if Tag.ofStr q.tag = .snippetLicenseComments then q.value else lastValue g!"SnippetLicenseComments" ps := by
  rw [lastValue_snoc]; simp only [tag_snippetLicenseComments]
theorem values_snippetLicenseConcluded (ps : List TVPair) (q : TVPair) : values g!"SnippetLicenseConcluded" (ps ++ [q]) =
    values g!"SnippetLicenseConcluded" ps ++ (if Tag.ofStr q.tag = .snippetLicenseConcluded then [q.value] else []) := by
  rw [values_snoc]; simp only [tag_snippetLicenseConcluded]
theorem last_snippetLicenseConcluded (ps : List TVPair) (q : TVPair) : lastValue g!"SnippetLicenseConcluded" (ps ++ [q]) =
    if Tag.ofStr q.tag = .snippetLicenseConcluded then q.value else lastValue g!"SnippetLicenseConcluded" ps := by
  rw [lastValue_snoc]; simp only [tag_snippetLicenseConcluded]
theorem values_snippetName (ps : List TVPair) (q : TVPair) : values g!"SnippetName" (ps ++ [q]) =
    values g!"SnippetName" ps ++ (if Tag.ofStr q.tag = .snippetName then [q.value] else []) := by
  rw [values_snoc]; simp only [tag_snippetName]
theorem last_snippetName (ps : List TVPair) (q : TVPair) : lastValue g!"SnippetName" (ps ++ [q]) =
    if Tag.ofStr q.tag = .snippetName then q.value else lastValue g!"SnippetName" ps := by
  rw [lastValue_snoc]; simp only [tag_snippetName]
theorem values_validUntilDate (ps : List TVPair) (q : TVPair) : values g!"ValidUntilDate" (ps ++ [q]) =
    values g!"ValidUntilDate" ps ++ (if Tag.ofStr q.tag = .validUntilDate then [q.value] else []) := by
  rw [values_snoc]; simp only [tag_validUntilDate]
theorem last_validUntilDate (ps : List TVPair) (q : TVPair) : lastValue g!"ValidUntilDate" (ps ++ [q]) =
    if Tag.ofStr q.tag = .validUntilDate then q.value else lastValue g!"ValidUntilDate" ps := by
  rw [lastValue_snoc]; simp only [tag_validUntilDate]

end Verif
