import Verif.Model.RdfTerms

/-!
# The vocabulary of SPDX documents in RDF

The URIs of the properties and classes of the SPDX terms, and of the RDF, RDF Schema, DOAP and W3C pointers terms that SPDX
uses with them.
-/

namespace Verif.Spec.Rdf

def spdxNs : Str := g!"http://spdx.org/rdf/terms#"
def rdfNs : Str := g!"http://www.w3.org/1999/02/22-rdf-syntax-ns#"
def rdfsNs : Str := g!"http://www.w3.org/2000/01/rdf-schema#"
def doapNs : Str := g!"http://usefulinc.com/ns/doap#"
def pointersNs : Str := g!"http://www.w3.org/2009/pointers#"

/-- The URI of a property; `other` stands for all other properties. -/
def propertyUri : Pred → Option Str
  | .type_ => some (rdfNs ++ g!"type")
  | .specVersion => some (spdxNs ++ g!"specVersion")
  | .dataLicense => some (spdxNs ++ g!"dataLicense")
  | .name => some (spdxNs ++ g!"name")
  | .externalDocumentRef => some (spdxNs ++ g!"externalDocumentRef")
  | .creationInfo => some (spdxNs ++ g!"creationInfo")
  | .comment => some (rdfsNs ++ g!"comment")
  | .reviewed => some (spdxNs ++ g!"reviewed")
  | .describesPackage => some (spdxNs ++ g!"describesPackage")
  | .hasExtractedLicensingInfo => some (spdxNs ++ g!"hasExtractedLicensingInfo")
  | .relationship => some (spdxNs ++ g!"relationship")
  | .annotation => some (spdxNs ++ g!"annotation")
  | .externalDocumentId => some (spdxNs ++ g!"externalDocumentId")
  | .spdxDocument => some (spdxNs ++ g!"spdxDocument")
  | .checksum => some (spdxNs ++ g!"checksum")
  | .licenseListVersion => some (spdxNs ++ g!"licenseListVersion")
  | .creator => some (spdxNs ++ g!"creator")
  | .created => some (spdxNs ++ g!"created")
  | .reviewer => some (spdxNs ++ g!"reviewer")
  | .reviewDate => some (spdxNs ++ g!"reviewDate")
  | .annotator => some (spdxNs ++ g!"annotator")
  | .annotationDate => some (spdxNs ++ g!"annotationDate")
  | .annotationType => some (spdxNs ++ g!"annotationType")
  | .algorithm => some (spdxNs ++ g!"algorithm")
  | .checksumValue => some (spdxNs ++ g!"checksumValue")
  | .extractedText => some (spdxNs ++ g!"extractedText")
  | .licenseId => some (spdxNs ++ g!"licenseId")
  | .seeAlso => some (rdfsNs ++ g!"seeAlso")
  | .example_ => some (spdxNs ++ g!"example")
  | .member => some (spdxNs ++ g!"member")
  | .licenseException => some (spdxNs ++ g!"licenseException")
  | .licenseExceptionId => some (spdxNs ++ g!"licenseExceptionId")
  | .licenseExceptionText => some (spdxNs ++ g!"licenseExceptionText")
  | .isOsiApproved => some (spdxNs ++ g!"isOsiApproved")
  | .licenseText => some (spdxNs ++ g!"licenseText")
  | .standardLicenseHeader => some (spdxNs ++ g!"standardLicenseHeader")
  | .standardLicenseTemplate => some (spdxNs ++ g!"standardLicenseTemplate")
  | .standardLicenseHeaderTemplate => some (spdxNs ++ g!"standardLicenseHeaderTemplate")
  | .isDeprecatedLicenseId => some (spdxNs ++ g!"isDeprecatedLicenseId")
  | .isFsfLibre => some (spdxNs ++ g!"isFsfLibre")
  | .versionInfo => some (spdxNs ++ g!"versionInfo")
  | .packageFileName => some (spdxNs ++ g!"packageFileName")
  | .supplier => some (spdxNs ++ g!"supplier")
  | .originator => some (spdxNs ++ g!"originator")
  | .downloadLocation => some (spdxNs ++ g!"downloadLocation")
  | .filesAnalyzed => some (spdxNs ++ g!"filesAnalyzed")
  | .packageVerificationCode => some (spdxNs ++ g!"packageVerificationCode")
  | .packageVerificationCodeValue => some (spdxNs ++ g!"packageVerificationCodeValue")
  | .packageVerificationCodeExcludedFile => some (spdxNs ++ g!"packageVerificationCodeExcludedFile")
  | .homepage => some (doapNs ++ g!"homepage")
  | .doapName => some (doapNs ++ g!"name")
  | .sourceInfo => some (spdxNs ++ g!"sourceInfo")
  | .licenseConcluded => some (spdxNs ++ g!"licenseConcluded")
  | .licenseInfoFromFiles => some (spdxNs ++ g!"licenseInfoFromFiles")
  | .licenseDeclared => some (spdxNs ++ g!"licenseDeclared")
  | .licenseComments => some (spdxNs ++ g!"licenseComments")
  | .copyrightText => some (spdxNs ++ g!"copyrightText")
  | .summary => some (spdxNs ++ g!"summary")
  | .description => some (spdxNs ++ g!"description")
  | .externalRef => some (spdxNs ++ g!"externalRef")
  | .hasFile => some (spdxNs ++ g!"hasFile")
  | .primaryPackagePurpose => some (spdxNs ++ g!"primaryPackagePurpose")
  | .releaseDate => some (spdxNs ++ g!"releaseDate")
  | .builtDate => some (spdxNs ++ g!"builtDate")
  | .validUntilDate => some (spdxNs ++ g!"validUntilDate")
  | .attributionText => some (spdxNs ++ g!"attributionText")
  | .referenceCategory => some (spdxNs ++ g!"referenceCategory")
  | .referenceType => some (spdxNs ++ g!"referenceType")
  | .referenceLocator => some (spdxNs ++ g!"referenceLocator")
  | .fileName => some (spdxNs ++ g!"fileName")
  | .fileType => some (spdxNs ++ g!"fileType")
  | .licenseInfoInFile => some (spdxNs ++ g!"licenseInfoInFile")
  | .artifactOf => some (spdxNs ++ g!"artifactOf")
  | .noticeText => some (spdxNs ++ g!"noticeText")
  | .fileContributor => some (spdxNs ++ g!"fileContributor")
  | .fileDependency => some (spdxNs ++ g!"fileDependency")
  | .relationshipType => some (spdxNs ++ g!"relationshipType")
  | .relatedSpdxElement => some (spdxNs ++ g!"relatedSpdxElement")
  | .snippetFromFile => some (spdxNs ++ g!"snippetFromFile")
  | .range => some (spdxNs ++ g!"range")
  | .licenseInfoInSnippet => some (spdxNs ++ g!"licenseInfoInSnippet")
  | .startPointer => some (pointersNs ++ g!"startPointer")
  | .endPointer => some (pointersNs ++ g!"endPointer")
  | .reference => some (pointersNs ++ g!"reference")
  | .offset => some (pointersNs ++ g!"offset")
  | .lineNumber => some (pointersNs ++ g!"lineNumber")
  | .other => none

/-- The URI of a class; `other` stands for all other classes. -/
def classUri : Cls → Option Str
  | .spdxDocument => some (spdxNs ++ g!"SpdxDocument")
  | .snippet => some (spdxNs ++ g!"Snippet")
  | .file => some (spdxNs ++ g!"File")
  | .package => some (spdxNs ++ g!"Package")
  | .spdxElement => some (spdxNs ++ g!"SpdxElement")
  | .disjunctiveLicenseSet => some (spdxNs ++ g!"DisjunctiveLicenseSet")
  | .conjunctiveLicenseSet => some (spdxNs ++ g!"ConjunctiveLicenseSet")
  | .extractedLicensingInfo => some (spdxNs ++ g!"ExtractedLicensingInfo")
  | .listedLicense => some (spdxNs ++ g!"ListedLicense")
  | .license => some (spdxNs ++ g!"License")
  | .withExceptionOperator => some (spdxNs ++ g!"WithExceptionOperator")
  | .orLaterOperator => some (spdxNs ++ g!"OrLaterOperator")
  | .simpleLicensingInfo => some (spdxNs ++ g!"SimpleLicensingInfo")
  | .other => none

/-- The types of relationships, as they are spelt in RDF. -/
def relationshipNames : List Str := [
  g!"amendment", g!"ancestorOf", g!"buildDependencyOf", g!"buildToolOf", g!"containedBy", g!"contains", g!"copyOf",
  g!"dataFile", g!"dataFileOf", g!"dependencyManifestOf", g!"dependencyOf", g!"dependsOn", g!"descendantOf", g!"describedBy",
  g!"describes", g!"devDependencyOf", g!"devToolOf", g!"distributionArtifact", g!"documentation", g!"dynamicLink",
  g!"exampleOf", g!"expandedFromArchive", g!"fileAdded", g!"fileDeleted", g!"fileModified", g!"generatedFrom", g!"generates",
  g!"hasPrerequisite", g!"metafileOf", g!"optionalComponentOf", g!"optionalDependencyOf", g!"other", g!"packageOf",
  g!"patchApplied", g!"patchFor", g!"prerequisiteFor", g!"providedDependencyOf", g!"runtimeDependencyOf", g!"staticLink",
  g!"testDependencyOf", g!"testOf", g!"testToolOf", g!"testcaseOf", g!"variantOf"]

end Verif.Spec.Rdf
